import Mathlib.Data.UInt
import Mathlib.Data.List.Perm.Subperm

/-!
# `std::map<uint32_t, T>`

Ordered association lists: what the code in `/repo` uses of `std::map` with `uint32_t` keys
(`operator[]` assignment, `find`, iteration in key order).
-/

namespace Verif

namespace OMap

variable {α : Type}

/-- `m[k] = v`. -/
def insert (k : UInt32) (v : α) : List (UInt32 × α) → List (UInt32 × α)
  | [] => [(k, v)]
  | (k', v') :: l =>
    if k < k' then (k, v) :: (k', v') :: l
    else if k = k' then (k, v) :: l
    else (k', v') :: insert k v l

/-- `m.find(k)`. -/
def find (k : UInt32) : List (UInt32 × α) → Option α
  | [] => none
  | (k', v) :: l => if k' = k then some v else find k l

/-- Keys in iteration order (`arc_helpers::GetKeys`). -/
def keys (l : List (UInt32 × α)) : List UInt32 := l.map Prod.fst

/-- Keys in strictly increasing order, as the iteration order of `std::map` guarantees. -/
def Sorted (l : List (UInt32 × α)) : Prop := (keys l).Pairwise (· < ·)

theorem find_insert (k k' : UInt32) (v : α) (l : List (UInt32 × α)) :
    find k' (insert k v l) = if k = k' then some v else find k' l := by
  induction l with
  | nil => simp [insert, find]
  | cons p l ih =>
    obtain ⟨a, b⟩ := p
    unfold insert
    split
    · simp [find]
    · split
      · rename_i h1 h2
        subst h2
        simp only [find]
        split <;> rfl
      · rename_i h1 h2
        simp only [find]
        rw [ih]
        by_cases h3 : a = k'
        · have : ¬ k = k' := fun h => h2 (h.trans h3.symm)
          simp [h3, this]
        · simp [h3]

theorem mem_keys_insert (k k' : UInt32) (v : α) (l : List (UInt32 × α)) :
    k' ∈ keys (insert k v l) ↔ k' = k ∨ k' ∈ keys l := by
  induction l with
  | nil => simp [insert, keys]
  | cons p l ih =>
    obtain ⟨a, b⟩ := p
    unfold insert
    split
    · simp [keys]
    · split
      · rename_i h1 h2
        subst h2
        simp [keys]
      · simp only [keys, List.map_cons, List.mem_cons] at ih ⊢
        rw [ih]
        tauto

theorem sorted_insert (k : UInt32) (v : α) (l : List (UInt32 × α)) (h : Sorted l) :
    Sorted (insert k v l) := by
  induction l with
  | nil => simp [insert, Sorted, keys]
  | cons p l ih =>
    obtain ⟨a, b⟩ := p
    have hc : (∀ x ∈ keys l, a < x) ∧ Sorted l := by
      unfold Sorted keys at h
      rw [List.map_cons, List.pairwise_cons] at h
      exact h
    have hmk : ∀ (k : UInt32) (v : α) (l : List (UInt32 × α)), (∀ x ∈ keys l, k < x) → Sorted l →
        Sorted ((k, v) :: l) := by
      intro k v l h1 h2
      unfold Sorted keys at *
      rw [List.map_cons, List.pairwise_cons]
      exact ⟨h1, h2⟩
    unfold insert
    split
    · rename_i hlt
      refine hmk _ _ _ ?_ h
      intro x hx
      have hx' : x = a ∨ x ∈ keys l := by simpa [keys] using hx
      rcases hx' with rfl | hx'
      · exact hlt
      · exact UInt32.lt_trans hlt (hc.1 x hx')
    · split
      · rename_i h1 h2
        subst h2
        exact hmk _ _ _ hc.1 hc.2
      · rename_i h1 h2
        refine hmk _ _ _ ?_ (ih hc.2)
        intro x hx
        rcases (mem_keys_insert k x v l).mp hx with rfl | hx
        · rcases UInt32.lt_or_lt_of_ne h2 with h3 | h3
          · exact absurd h3 h1
          · exact h3
        · exact hc.1 x hx

theorem find_isSome_iff (k : UInt32) (l : List (UInt32 × α)) :
    (find k l).isSome = true ↔ k ∈ keys l := by
  induction l with
  | nil => simp [find, keys]
  | cons p l ih =>
    obtain ⟨a, b⟩ := p
    unfold find
    split
    · rename_i h; simp [keys, h]
    · rename_i h
      rw [ih]
      simp only [keys, List.map_cons, List.mem_cons]
      constructor
      · exact Or.inr
      · rintro (h' | h')
        · exact absurd h'.symm h
        · exact h'

/-- Iteration and lookup agree. -/
theorem mem_iff_find {l : List (UInt32 × α)} (h : Sorted l) (k : UInt32) (v : α) :
    (k, v) ∈ l ↔ find k l = some v := by
  induction l with
  | nil => simp [find]
  | cons p l ih =>
    obtain ⟨a, b⟩ := p
    have hc : (∀ x ∈ keys l, a < x) ∧ Sorted l := by
      unfold Sorted keys at h
      rw [List.map_cons, List.pairwise_cons] at h
      exact h
    simp only [find, List.mem_cons, Prod.mk.injEq]
    split
    · rename_i hak
      subst hak
      constructor
      · rintro (⟨_, rfl⟩ | hm)
        · rfl
        · have := hc.1 a (List.mem_map.mpr ⟨_, hm, rfl⟩)
          exact absurd this (UInt32.lt_irrefl _)
      · intro e; simp only [Option.some.injEq] at e; exact Or.inl ⟨rfl, e.symm⟩
    · rename_i hak
      rw [← ih hc.2]
      constructor
      · rintro (⟨rfl, _⟩ | hm)
        · exact absurd rfl hak
        · exact hm
      · exact Or.inr

theorem length_insert (k : UInt32) (v : α) {l : List (UInt32 × α)} (h : find k l = none) :
    (insert k v l).length = l.length + 1 := by
  induction l with
  | nil => rfl
  | cons p l ih =>
    obtain ⟨a, b⟩ := p
    unfold find at h
    split at h
    · simp at h
    · rename_i hak
      unfold insert
      split
      · rfl
      · split
        · rename_i h2; exact absurd h2.symm hak
        · simp only [List.length_cons, ih h]

/-- There are at most `2 ^ 32` keys. -/
theorem length_lt {l : List (UInt32 × α)} (h : Sorted l) {k : UInt32} (hk : find k l = none) :
    l.length < 2 ^ 32 := by
  have hnd : (k :: keys l).Nodup := by
    rw [List.nodup_cons]
    refine ⟨fun hm => ?_, h.imp fun h e => absurd (e ▸ h) (UInt32.lt_irrefl _)⟩
    have := (find_isSome_iff k l).mpr hm
    rw [hk] at this
    simp at this
  have hnd' : ((k :: keys l).map UInt32.toNat).Nodup :=
    hnd.map (fun a b e => UInt32.toNat_inj.mp e)
  have hsub : (k :: keys l).map UInt32.toNat ⊆ List.range (2 ^ 32) := by
    intro n hn
    obtain ⟨u, _, rfl⟩ := List.mem_map.mp hn
    exact List.mem_range.mpr (UInt32.toNat_lt u)
  have := (List.subperm_of_subset hnd' hsub).length_le
  simp only [List.length_map, List.length_cons, List.length_range, keys] at this
  omega

/-- A map has at most `2 ^ 32` entries. -/
theorem length_le {l : List (UInt32 × α)} (h : Sorted l) : l.length ≤ 2 ^ 32 := by
  cases l with
  | nil => simp
  | cons p l =>
    unfold Sorted keys at h
    rw [List.map_cons, List.pairwise_cons] at h
    have hn : find p.1 l = none := by
      by_contra hne
      have := (find_isSome_iff p.1 l).mp (Option.isSome_iff_ne_none.mpr hne)
      exact absurd (h.1 _ this) (UInt32.lt_irrefl _)
    have := length_lt (l := l) h.2 hn
    simp only [List.length_cons]
    omega

theorem nodup_keys {l : List (UInt32 × α)} (h : Sorted l) : (keys l).Nodup :=
  h.imp fun h e => absurd (e ▸ h) (UInt32.lt_irrefl _)

end OMap

end Verif
