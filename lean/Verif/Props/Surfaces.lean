import Verif.Topology
import Verif.Spec.Basic
import Mathlib.Data.List.Nodup
import Mathlib.Data.List.Perm.Subperm
import Mathlib.Tactic.Tauto

/-!
# Conversions between surface maps, surface lists and index maps (C58)
-/

namespace Verif

namespace Topo

/-- `m.at(k)`. -/
def lookup {α : Type} (m : List (Idx × α)) (k : Idx) : Option α :=
  (m.find? fun p => p.1 == k).map Prod.snd

theorem lookup_insertKey {α : Type} (m : List (Idx × α)) (k j : Idx) (a : α) :
    lookup (insertKey m k a) j = if j = k then some a else lookup m j := by
  induction m with
  | nil =>
    by_cases h : j = k
    · subst h; simp [insertKey, lookup]
    · simp [insertKey, lookup, h, Ne.symm h]
  | cons p m ih =>
    obtain ⟨k', a'⟩ := p
    unfold insertKey
    by_cases h1 : k' = k
    · subst h1
      rw [if_pos rfl]
      by_cases h : j = k'
      · subst h; simp [lookup]
      · simp [lookup, h, Ne.symm h]
    · rw [if_neg h1]
      by_cases h2 : k' = j
      · subst h2
        simp [lookup, h1]
      · have e : ∀ m', lookup ((k', a') :: m') j = lookup m' j := by
          intro m'; simp [lookup, h2]
        rw [e, e, ih]

theorem mem_keys_insertKey {α : Type} (m : List (Idx × α)) (k : Idx) (a : α) (j : Idx) :
    j ∈ (insertKey m k a).map Prod.fst ↔ j = k ∨ j ∈ m.map Prod.fst := by
  induction m with
  | nil => simp [insertKey]
  | cons p m ih =>
    obtain ⟨k', a'⟩ := p
    unfold insertKey
    by_cases h1 : k' = k
    · subst h1; rw [if_pos rfl]; simp
    · rw [if_neg h1, List.map_cons, List.mem_cons, ih, List.map_cons, List.mem_cons]
      tauto

theorem nodup_insertKey {α : Type} {m : List (Idx × α)} (h : (m.map Prod.fst).Nodup) (k : Idx) (a : α) :
    ((insertKey m k a).map Prod.fst).Nodup := by
  induction m with
  | nil => simp [insertKey]
  | cons p m ih =>
    obtain ⟨k', a'⟩ := p
    rw [List.map_cons, List.nodup_cons] at h
    unfold insertKey
    by_cases h1 : k' = k
    · subst h1; rw [if_pos rfl, List.map_cons, List.nodup_cons]; exact h
    · rw [if_neg h1, List.map_cons, List.nodup_cons, mem_keys_insertKey]
      exact ⟨by rintro (h2 | h2); exacts [h1 h2, h.1 h2], ih h.2⟩

theorem lookup_some {α : Type} {m : List (Idx × α)} (hn : (m.map Prod.fst).Nodup) (v : Idx) (c : α) :
    lookup m v = some c ↔ (v, c) ∈ m := by
  unfold lookup
  induction m with
  | nil => simp
  | cons p vs ih =>
    obtain ⟨w, e⟩ := p
    simp only [List.map_cons, List.nodup_cons] at hn
    by_cases h : w = v
    · subst h
      simp only [List.find?_cons, beq_self_eq_true, Option.map_some, Option.some.injEq, List.mem_cons,
        Prod.mk.injEq, true_and]
      constructor
      · intro h; exact .inl h.symm
      · rintro (h | h)
        · exact h.symm
        · exact (hn.1 (List.mem_map_of_mem (f := Prod.fst) h)).elim
    · have : ((w, e).1 == v) = false := by simpa using h
      simp only [List.find?_cons, this, List.mem_cons, Prod.mk.injEq, ih hn.2]
      constructor
      · exact .inr
      · rintro (⟨h', _⟩ | h')
        · exact (h h'.symm).elim
        · exact h'

theorem staticSurface_eq (raw : List (Idx × UInt8)) :
    staticSurface raw = (raw.filter fun p => p.2 = 1).map Prod.fst := by
  have gen : ∀ (raw : List (Idx × UInt8)) (acc : List Idx),
      raw.foldl (fun l p => if p.2 = 1 then l ++ [p.1] else l) acc =
        acc ++ (raw.filter fun p => p.2 = 1).map Prod.fst := by
    intro raw
    induction raw with
    | nil => simp
    | cons p raw ih =>
      intro acc
      rw [List.foldl_cons, ih]
      by_cases h : p.2 = 1 <;> simp [h]
  simpa [staticSurface] using gen raw []

theorem dynamicSurface_spec (l : List Idx) :
    ((dynamicSurface l).map Prod.fst).Nodup ∧
    (∀ v c, (v, c) ∈ dynamicSurface l ↔ v ∈ l ∧ c = 1) := by
  have gen : ∀ (l : List Idx) (m : List (Idx × UInt8)), (m.map Prod.fst).Nodup →
      ((l.foldl (fun m i => insertKey m i 1) m).map Prod.fst).Nodup ∧
      ∀ v, lookup (l.foldl (fun m i => insertKey m i 1) m) v = if v ∈ l then some 1 else lookup m v := by
    intro l
    induction l with
    | nil => intro m hm; exact ⟨hm, fun v => by simp⟩
    | cons i l ih =>
      intro m hm
      obtain ⟨h1, h2⟩ := ih _ (nodup_insertKey hm i 1)
      refine ⟨h1, fun v => ?_⟩
      rw [List.foldl_cons, h2, lookup_insertKey]
      by_cases hv : v ∈ l <;> by_cases hi : v = i <;> simp [hv, hi]
  obtain ⟨h1, h2⟩ := gen l [] (by simp)
  refine ⟨h1, fun v c => ?_⟩
  have h3 := lookup_some h1 v c
  rw [h2] at h3
  change _ ↔ (v, c) ∈ dynamicSurface l at h3
  rw [← h3]
  by_cases hv : v ∈ l
  · simp [hv, eq_comm]
  · simp [hv, lookup]

theorem surfaceIndexMap_spec (l : List Idx) (v : Idx) (n : Nat) :
    lookup (surfaceIndexMap l) v = some n ↔ l[n]? = some v ∧ ∀ k, n < k → l[k]? ≠ some v := by
  have gen : ∀ (l : List (Idx × Nat)) (m : List (Idx × Nat)) (v : Idx),
      lookup (l.foldl (fun m p => insertKey m p.1 p.2) m) v =
        match (l.reverse.find? fun p => p.1 == v) with
        | some p => some p.2
        | none => lookup m v := by
    intro l
    induction l with
    | nil => intro m v; simp
    | cons p l ih =>
      intro m v
      rw [List.foldl_cons, ih, List.reverse_cons, List.find?_append]
      cases h : l.reverse.find? (fun p => p.1 == v) with
      | some q => simp
      | none =>
        simp only [Option.none_or]
        rw [lookup_insertKey]
        by_cases hp : p.1 = v
        · simp [hp]
        · simp [hp, Ne.symm hp]
  have hg := gen l.zipIdx [] v
  change lookup (surfaceIndexMap l) v = _ at hg
  rw [hg]
  clear hg gen
  induction l using List.reverseRecOn with
  | nil => simp [lookup]
  | append_singleton l w ih =>
    rw [List.zipIdx_append, List.reverse_append]
    simp only [List.zipIdx_cons, List.zipIdx_nil, List.reverse_cons, List.reverse_nil, List.nil_append,
      List.singleton_append, Nat.zero_add]
    by_cases hw : w = v
    · subst hw
      simp only [List.find?_cons, beq_self_eq_true, Option.some.injEq]
      constructor
      · rintro rfl
        refine ⟨by simp, fun k hk => ?_⟩
        rw [List.getElem?_eq_none (by simp; omega)]; simp
      · rintro ⟨h1, h2⟩
        by_contra hne
        have hlt : n < (l ++ [w]).length := by
          by_contra hge
          rw [List.getElem?_eq_none (by omega)] at h1; simp at h1
        simp only [List.length_append, List.length_singleton] at hlt
        exact h2 l.length (by omega) (by simp)
    · have hb : (w == v) = false := by simpa using hw
      simp only [List.find?_cons, hb]
      refine ih.trans ?_
      have e : ∀ k : Nat, (l ++ [w])[k]? = some v ↔ l[k]? = some v := by
        intro k
        rcases Nat.lt_trichotomy k l.length with h | h | h
        · rw [List.getElem?_append_left h]
        · subst h; simp [hw]
        · rw [List.getElem?_eq_none (by simp; omega), List.getElem?_eq_none (by omega)]
      simp only [Ne, e]

end Topo

/-- C58, list to map and back.  For every list of cells and every iteration order of the hash map:
converting the list to a surface map and extracting the cells again gives each cell of the list
exactly once and no other cell. -/
theorem C58_static_dynamic (l : List Idx) (ord : List (Idx × UInt8) → List (Idx × UInt8))
    (ho : ∀ m, (ord m).Perm m) :
    (Topo.staticSurface (ord (Topo.dynamicSurface l))).Nodup ∧
    (∀ v, v ∈ Topo.staticSurface (ord (Topo.dynamicSurface l)) ↔ v ∈ l) ∧
    (l.Nodup → (Topo.staticSurface (ord (Topo.dynamicSurface l))).Perm l) := by
  obtain ⟨h1, h2⟩ := Topo.dynamicSurface_spec l
  have hp := ho (Topo.dynamicSurface l)
  have hn : (Topo.staticSurface (ord (Topo.dynamicSurface l))).Nodup := by
    rw [Topo.staticSurface_eq]
    exact ((hp.map Prod.fst).nodup_iff.mpr h1).sublist (List.Sublist.map _ List.filter_sublist)
  have hm : ∀ v, v ∈ Topo.staticSurface (ord (Topo.dynamicSurface l)) ↔ v ∈ l := by
    intro v
    rw [Topo.staticSurface_eq]
    simp only [List.mem_map, List.mem_filter, decide_eq_true_eq]
    constructor
    · rintro ⟨⟨w, c⟩, ⟨h3, h4⟩, rfl⟩
      exact ((h2 w c).mp (hp.mem_iff.mp h3)).1
    · intro hv
      exact ⟨(v, 1), ⟨hp.mem_iff.mpr ((h2 v 1).mpr ⟨hv, rfl⟩), rfl⟩, rfl⟩
  exact ⟨hn, hm, fun hl => (List.perm_ext_iff_of_nodup hn hl).mpr hm⟩

/-- C58, map to list and back: an extracted surface contains exactly the active cells (value 1), and
converting it back gives the map without its inactive entries. -/
theorem C58_dynamic_static (m : List (Idx × UInt8))
    (ord : List (Idx × UInt8) → List (Idx × UInt8)) (ho : ∀ m, (ord m).Perm m) :
    (∀ v, v ∈ Topo.staticSurface (ord m) ↔ (v, 1) ∈ m) ∧
    ∀ v c, (v, c) ∈ Topo.dynamicSurface (Topo.staticSurface (ord m)) ↔ c = 1 ∧ (v, c) ∈ m := by
  have hm : ∀ v, v ∈ Topo.staticSurface (ord m) ↔ (v, 1) ∈ m := by
    intro v
    rw [Topo.staticSurface_eq]
    simp only [List.mem_map, List.mem_filter, decide_eq_true_eq]
    constructor
    · rintro ⟨⟨w, c⟩, ⟨h3, h4⟩, rfl⟩
      simp only at h4
      subst h4
      exact (ho m).mem_iff.mp h3
    · intro hv
      exact ⟨(v, 1), ⟨(ho m).mem_iff.mpr hv, rfl⟩, rfl⟩
  refine ⟨hm, fun v c => ?_⟩
  rw [(Topo.dynamicSurface_spec _).2, hm]
  constructor
  · rintro ⟨h1, rfl⟩; exact ⟨rfl, h1⟩
  · rintro ⟨rfl, h1⟩; exact ⟨h1, rfl⟩

/-- C58, index map: the entry of a cell is its last position in the list, and cells that are not in
the list have no entry. -/
theorem C58_index_map (l : List Idx) (v : Idx) :
    (∀ n, Topo.lookup (Topo.surfaceIndexMap l) v = some n ↔
      l[n]? = some v ∧ ∀ k, n < k → l[k]? ≠ some v) ∧
    (l.Nodup → ∀ n, l[n]? = some v → Topo.lookup (Topo.surfaceIndexMap l) v = some n) := by
  refine ⟨Topo.surfaceIndexMap_spec l v, fun hl n hn => ?_⟩
  rw [Topo.surfaceIndexMap_spec]
  refine ⟨hn, fun k hk he => ?_⟩
  obtain ⟨h1, e1⟩ := List.getElem?_eq_some_iff.mp hn
  obtain ⟨h2, e2⟩ := List.getElem?_eq_some_iff.mp he
  have := (hl.getElem_inj_iff (hi := h1) (hj := h2)).mp (by rw [e1, e2])
  omega

example : Topo.staticSurface [(⟨0, 0, 0⟩, 1), (⟨1, 0, 0⟩, 0), (⟨2, 0, 0⟩, 1)] = [⟨0, 0, 0⟩, ⟨2, 0, 0⟩] ∧
    Topo.dynamicSurface [⟨0, 0, 0⟩, ⟨2, 0, 0⟩, ⟨0, 0, 0⟩] = [(⟨0, 0, 0⟩, 1), (⟨2, 0, 0⟩, 1)] ∧
    Topo.surfaceIndexMap [⟨0, 0, 0⟩, ⟨2, 0, 0⟩, ⟨0, 0, 0⟩] = [(⟨0, 0, 0⟩, 2), (⟨2, 0, 0⟩, 1)] := by
  decide

end Verif
