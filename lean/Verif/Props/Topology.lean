import Verif.Topology
import Verif.Spec.Basic
import Mathlib.Logic.Relation
import Mathlib.Data.List.Perm.Subperm
import Mathlib.Tactic.Tauto

/-!
# Properties of the surface vertex connectivity (C36)
-/

namespace Verif

namespace Spec

/-- Bit `b` of the connectivity of vertex `v` names this neighbour. -/
def bitTarget (v : Idx) : Nat → Idx
  | 0 => ⟨v.x, v.y, v.z - 1⟩
  | 1 => ⟨v.x, v.y, v.z + 1⟩
  | 2 => ⟨v.x, v.y - 1, v.z⟩
  | 3 => ⟨v.x, v.y + 1, v.z⟩
  | 4 => ⟨v.x - 1, v.y, v.z⟩
  | _ => ⟨v.x + 1, v.y, v.z⟩

/-- The vertex map has an edge from `v` to `w`. -/
def Joined (vs : List (Idx × UInt8)) (v w : Idx) : Prop :=
  ∃ c b, (v, c) ∈ vs ∧ b < 6 ∧ c.toNat.testBit b = true ∧ w = bitTarget v b

/-- A path of edges. -/
def Connected (vs : List (Idx × UInt8)) : Idx → Idx → Prop := Relation.ReflTransGen (Joined vs)

/-- Some edge leads to a vertex that is not in the map. -/
def Dangling (vs : List (Idx × UInt8)) : Prop := ∃ v w, Joined vs v w ∧ w ∉ vs.map Prod.fst

/-- Edges between vertices of the map are recorded at both ends. -/
def SymmetricEdges (vs : List (Idx × UInt8)) : Prop :=
  ∀ v w, Joined vs v w → w ∈ vs.map Prod.fst → Joined vs w v

/-- The vertex graph has `n` connected pieces: there are `n` vertices, no two of them connected,
such that every vertex is connected to one of them. -/
def HasPieces (vs : List (Idx × UInt8)) (n : Nat) : Prop :=
  ∃ reps : List Idx, reps.length = n ∧ (∀ r ∈ reps, r ∈ vs.map Prod.fst) ∧
    reps.Pairwise (fun a b => ¬ Connected vs a b) ∧
    ∀ v ∈ vs.map Prod.fst, ∃ r ∈ reps, Connected vs r v

end Spec

open Spec Relation

namespace Topo

theorem bit_iff (c : UInt8) : ∀ b : Nat, b < 6 →
    (c &&& (1 <<< UInt8.ofNat b) > 0 ↔ c.toNat.testBit b = true) := by
  intro b hb
  have key : ∀ (b : Fin 6) (c : Fin 256),
      ((UInt8.ofNat c.val) &&& (1 <<< UInt8.ofNat b.val) > 0 ↔ (UInt8.ofNat c.val).toNat.testBit b.val = true) := by
    decide +kernel
  have := key ⟨b, hb⟩ ⟨c.toNat, c.toNat_lt⟩
  simpa using this

theorem mem_nbrs (c : UInt8) (v w : Idx) :
    w ∈ nbrs c v ↔ ∃ b, b < 6 ∧ c.toNat.testBit b = true ∧ w = bitTarget v b := by
  have h0 := bit_iff c 0 (by omega)
  have h1 := bit_iff c 1 (by omega)
  have h2 := bit_iff c 2 (by omega)
  have h3 := bit_iff c 3 (by omega)
  have h4 := bit_iff c 4 (by omega)
  have h5 := bit_iff c 5 (by omega)
  have e0 : (1 : UInt8) <<< UInt8.ofNat 0 = 1 := by decide
  have e1 : (1 : UInt8) <<< UInt8.ofNat 1 = 2 := by decide
  have e2 : (1 : UInt8) <<< UInt8.ofNat 2 = 4 := by decide
  have e3 : (1 : UInt8) <<< UInt8.ofNat 3 = 8 := by decide
  have e4 : (1 : UInt8) <<< UInt8.ofNat 4 = 16 := by decide
  have e5 : (1 : UInt8) <<< UInt8.ofNat 5 = 32 := by decide
  rw [e0] at h0; rw [e1] at h1; rw [e2] at h2; rw [e3] at h3; rw [e4] at h4; rw [e5] at h5
  unfold nbrs
  simp only [List.mem_append, h0, h1, h2, h3, h4, h5]
  constructor
  · intro h
    rcases h with ((((h | h) | h) | h) | h) | h <;> split at h <;> simp at h <;> rename_i hb
    · exact ⟨0, by omega, hb, h⟩
    · exact ⟨1, by omega, hb, h⟩
    · exact ⟨2, by omega, hb, h⟩
    · exact ⟨3, by omega, hb, h⟩
    · exact ⟨4, by omega, hb, h⟩
    · exact ⟨5, by omega, hb, h⟩
  · rintro ⟨b, hb, ht, rfl⟩
    match b, hb with
    | 0, _ => simp [ht, bitTarget]
    | 1, _ => simp [ht, bitTarget]
    | 2, _ => simp [ht, bitTarget]
    | 3, _ => simp [ht, bitTarget]
    | 4, _ => simp [ht, bitTarget]
    | 5, _ => simp [ht, bitTarget]

/-- The edge relation of the search. -/
def Edge (at? : Idx → Option UInt8) (v w : Idx) : Prop := ∃ c, at? v = some c ∧ w ∈ nbrs c v

theorem enqueue_spec (ws queue queued : List Idx) :
    ∃ new : List Idx, (enqueue ws queue queued).1 = queue ++ new ∧
      (∀ x, x ∈ (enqueue ws queue queued).2 ↔ x ∈ new ∨ x ∈ queued) ∧ new.Nodup ∧
      (∀ x ∈ new, x ∈ ws ∧ x ∉ queued) ∧ ∀ x ∈ ws, x ∈ new ∨ x ∈ queued := by
  induction ws generalizing queue queued with
  | nil => exact ⟨[], by simp [enqueue]⟩
  | cons w ws ih =>
    unfold enqueue
    by_cases h : w ∈ queued
    · rw [if_pos h]
      obtain ⟨new, h1, h2, h3, h4, h5⟩ := ih queue queued
      refine ⟨new, h1, h2, h3, fun x hx => ⟨List.mem_cons_of_mem _ (h4 x hx).1, (h4 x hx).2⟩, ?_⟩
      intro x hx
      rcases List.mem_cons.mp hx with rfl | hx
      · exact .inr h
      · exact h5 x hx
    · rw [if_neg h]
      obtain ⟨new, h1, h2, h3, h4, h5⟩ := ih (queue ++ [w]) (w :: queued)
      refine ⟨w :: new, by rw [h1]; simp, ?_, ?_, ?_, ?_⟩
      · intro x
        rw [h2]
        simp only [List.mem_cons]
        tauto
      · refine List.nodup_cons.mpr ⟨fun hw => (h4 w hw).2 List.mem_cons_self, h3⟩
      · intro x hx
        rcases List.mem_cons.mp hx with rfl | hx
        · exact ⟨List.mem_cons_self, h⟩
        · exact ⟨List.mem_cons_of_mem _ (h4 x hx).1, fun hq => (h4 x hx).2 (List.mem_cons_of_mem _ hq)⟩
      · intro x hx
        rcases List.mem_cons.mp hx with rfl | hx
        · exact .inl List.mem_cons_self
        · rcases h5 x hx with h6 | h6
          · exact .inl (List.mem_cons_of_mem _ h6)
          · rcases List.mem_cons.mp h6 with rfl | h6
            · exact .inl List.mem_cons_self
            · exact .inr h6

/-- What a search from `key` returns. -/
def SearchResult (at? : Idx → Option UInt8) (key : Idx) (marked : List Idx) :
    Outcome (List Idx × Nat) → Prop
  | .running => False
  | .throw => ∃ v w, ReflTransGen (Edge at?) key v ∧ Edge at? v w ∧ at? w = none
  | .done (marked', n) => ∃ vis : List Idx, marked' = vis ++ marked ∧ n = vis.length ∧ vis.Nodup ∧
      (∀ x, x ∈ vis ↔ ReflTransGen (Edge at?) key x) ∧ ∀ x ∈ vis, (at? x).isSome = true

theorem search_spec {at? : Idx → Option UInt8} {keys : List Idx} {key : Idx} {marked : List Idx}
    (hk : ∀ v, (at? v).isSome = true ↔ v ∈ keys) (hkey : (at? key).isSome = true) :
    ∀ (fuel : Nat) (queue queued vis : List Idx),
      (vis ++ queue).Nodup → (∀ x, x ∈ queued ↔ x ∈ vis ∨ x ∈ queue) →
      (∀ x ∈ queued, ReflTransGen (Edge at?) key x) →
      (∀ v ∈ vis, (at? v).isSome = true ∧ ∀ w, Edge at? v w → w ∈ queued) →
      key ∈ queued → keys.length + 1 ≤ fuel + vis.length →
      SearchResult at? key marked (search at? fuel queue queued (vis ++ marked) vis.length) := by
  intro fuel
  induction fuel with
  | zero =>
    intro queue queued vis hnd hq hr hv hkq hf
    exfalso
    have hsub : vis ⊆ keys := fun x hx => (hk x).mp (hv x hx).1
    have := ((List.nodup_append.mp hnd).1.subperm hsub).length_le
    omega
  | succ fuel ih =>
    intro queue queued vis hnd hq hr hv hkq hf
    cases queue with
    | nil =>
      rw [search]
      refine ⟨vis, rfl, rfl, by simpa using hnd, ?_, fun x hx => (hv x hx).1⟩
      intro x
      constructor
      · intro hx; exact hr x ((hq x).mpr (.inl hx))
      · intro hx
        induction hx with
        | refl => simpa using (hq key).mp hkq
        | tail _ he ih' => simpa using (hq _).mp ((hv _ ih').2 _ he)
    | cons v queue =>
      rw [search]
      cases hat : at? v with
      | none =>
        have hvr := hr v ((hq v).mpr (.inr List.mem_cons_self))
        rcases ReflTransGen.cases_tail hvr with h | ⟨u, hu, he⟩
        · rw [h] at hat; rw [hat] at hkey; simp at hkey
        · exact ⟨u, v, hu, he, hat⟩
      | some c =>
        dsimp only
        obtain ⟨new, h1, h2, h3, h4, h5⟩ := enqueue_spec (nbrs c v) queue queued
        have hsome : (at? v).isSome = true := by rw [hat]; rfl
        have e : v :: (vis ++ marked) = (v :: vis) ++ marked := rfl
        have e2 : vis.length + 1 = (v :: vis).length := rfl
        rw [h1, e, e2]
        apply ih
        · have hp : ((v :: vis) ++ (queue ++ new)).Perm ((vis ++ v :: queue) ++ new) := by
            rw [List.cons_append]
            refine (List.perm_middle (a := v) (l₁ := vis) (l₂ := queue ++ new)).symm.trans ?_
            simp
          rw [hp.nodup_iff]
          refine List.nodup_append.mpr ⟨hnd, h3, ?_⟩
          intro a ha b hb hab
          subst hab
          exact (h4 a hb).2 ((hq a).mpr (List.mem_append.mp ha))
        · intro x
          rw [h2, hq]
          simp only [List.mem_cons, List.mem_append]
          tauto
        · intro x hx
          rcases (h2 x).mp hx with hx | hx
          · exact (hr v ((hq v).mpr (.inr List.mem_cons_self))).tail ⟨c, hat, (h4 x hx).1⟩
          · exact hr x hx
        · intro u hu
          rcases List.mem_cons.mp hu with rfl | hu
          · refine ⟨hsome, ?_⟩
            rintro w ⟨c', hc', hw⟩
            rw [hat] at hc'
            cases hc'
            exact (h2 w).mpr (h5 w hw)
          · exact ⟨(hv u hu).1, fun w hw => (h2 w).mpr (.inr ((hv u hu).2 w hw))⟩
        · exact (h2 key).mpr (.inr hkq)
        · simp only [List.length_cons]; omega

/-- What the loop over the keys returns. -/
def LoopResult (at? : Idx → Option UInt8) (keys : List Idx) : Outcome Nat → Prop
  | .running => False
  | .throw => ∃ v w, Edge at? v w ∧ at? w = none
  | .done n => ∃ reps : List Idx, reps.length = n ∧ (∀ r ∈ reps, r ∈ keys) ∧
      reps.Pairwise (fun a b => ¬ ReflTransGen (Edge at?) a b) ∧
      (∀ v ∈ keys, ∃ r ∈ reps, ReflTransGen (Edge at?) r v) ∧
      ∀ v w, Edge at? v w → (at? w).isSome = true

theorem reach_symm {at? : Idx → Option UInt8}
    (hs : ∀ v w, Edge at? v w → (at? w).isSome = true → Edge at? w v) {a b : Idx}
    (h : ReflTransGen (Edge at?) a b) (hb : (at? b).isSome = true) : ReflTransGen (Edge at?) b a := by
  induction h with
  | refl => exact .refl
  | tail _ he ih =>
    have : Edge at? _ _ := hs _ _ he hb
    refine ReflTransGen.head this (ih ?_)
    obtain ⟨c, hc, -⟩ := he
    rw [hc]; rfl

theorem components_spec {at? : Idx → Option UInt8} {keys : List Idx} (hnk : keys.Nodup)
    (hk : ∀ v, (at? v).isSome = true ↔ v ∈ keys)
    (hs : ∀ v w, Edge at? v w → (at? w).isSome = true → Edge at? w v) :
    ∀ (rest pre marked reps : List Idx), keys = pre ++ rest →
      marked.Nodup → (∀ x, x ∈ marked ↔ ∃ r ∈ reps, ReflTransGen (Edge at?) r x) →
      (∀ x ∈ marked, (at? x).isSome = true) → (∀ r ∈ reps, r ∈ keys) →
      reps.Pairwise (fun a b => ¬ ReflTransGen (Edge at?) a b) → (∀ x ∈ pre, x ∈ marked) →
      LoopResult at? keys (components at? keys.length rest marked reps.length marked.length) := by
  have fin : ∀ marked reps : List Idx,
      (∀ x, x ∈ marked ↔ ∃ r ∈ reps, ReflTransGen (Edge at?) r x) →
      (∀ x ∈ marked, (at? x).isSome = true) → (∀ r ∈ reps, r ∈ keys) →
      reps.Pairwise (fun a b => ¬ ReflTransGen (Edge at?) a b) → (∀ x ∈ keys, x ∈ marked) →
      LoopResult at? keys (.done reps.length) := by
    intro marked reps h2 h3 h4 h5 h6
    refine ⟨reps, rfl, h4, h5, fun v hv => (h2 v).mp (h6 v hv), ?_⟩
    intro v w hvw
    have hv : v ∈ keys := (hk v).mp (by obtain ⟨c, hc, -⟩ := hvw; rw [hc]; rfl)
    obtain ⟨r, hr, hrv⟩ := (h2 v).mp (h6 v hv)
    exact h3 w ((h2 w).mpr ⟨r, hr, hrv.tail hvw⟩)
  intro rest
  induction rest with
  | nil =>
    intro pre marked reps hpre h1 h2 h3 h4 h5 h6
    rw [components]
    exact fin marked reps h2 h3 h4 h5 (by rw [hpre]; simpa using h6)
  | cons key rest ih =>
    intro pre marked reps hpre h1 h2 h3 h4 h5 h6
    have hpre' : keys = (pre ++ [key]) ++ rest := by rw [hpre]; simp
    rw [components]
    by_cases hm : key ∈ marked
    · rw [if_pos hm]
      refine ih (pre ++ [key]) marked reps hpre' h1 h2 h3 h4 h5 ?_
      intro x hx
      rcases List.mem_append.mp hx with hx | hx
      · exact h6 x hx
      · simp only [List.mem_singleton] at hx; subst hx; exact hm
    · rw [if_neg hm]
      have hkm : key ∈ keys := by rw [hpre]; simp
      have hks := (hk key).mpr hkm
      have hsr := search_spec (marked := marked) hk hks (keys.length + 1) [key] [key] [] (by simp)
        (by simp) (by simp [ReflTransGen.refl]) (by simp) (by simp) (by simp)
      simp only [List.nil_append, List.length_nil] at hsr
      cases hres : search at? (keys.length + 1) [key] [key] marked 0 with
      | running => rw [hres] at hsr; exact hsr.elim
      | throw =>
        rw [hres] at hsr
        obtain ⟨v, w, -, he, hw⟩ := hsr
        exact ⟨v, w, he, hw⟩
      | done p =>
        obtain ⟨marked', n⟩ := p
        rw [hres] at hsr
        obtain ⟨vis, rfl, rfl, hnd, hvis, hsome⟩ := hsr
        dsimp only
        have hdisj : ∀ x ∈ vis, x ∉ marked := by
          intro x hx hxm
          obtain ⟨r, hr, hrx⟩ := (h2 x).mp hxm
          have hxk := reach_symm hs ((hvis x).mp hx) (hsome x hx)
          exact hm ((h2 key).mpr ⟨r, hr, hrx.trans hxk⟩)
        have g1 : (vis ++ marked).Nodup := List.nodup_append.mpr ⟨hnd, h1, fun a ha b hb hab =>
          hdisj a ha (hab ▸ hb)⟩
        have g2 : ∀ x, x ∈ vis ++ marked ↔ ∃ r ∈ key :: reps, ReflTransGen (Edge at?) r x := by
          intro x
          rw [List.mem_append, hvis, h2]
          simp
        have g3 : ∀ x ∈ vis ++ marked, (at? x).isSome = true := by
          intro x hx
          rcases List.mem_append.mp hx with hx | hx
          · exact hsome x hx
          · exact h3 x hx
        have g4 : ∀ r ∈ key :: reps, r ∈ keys := by
          intro r hr
          rcases List.mem_cons.mp hr with rfl | hr
          · exact hkm
          · exact h4 r hr
        have g5 : (key :: reps).Pairwise (fun a b => ¬ ReflTransGen (Edge at?) a b) := by
          refine List.pairwise_cons.mpr ⟨fun r hr hkr => ?_, h5⟩
          exact hm ((h2 key).mpr ⟨r, hr, reach_symm hs hkr ((hk r).mpr (h4 r hr))⟩)
        have elen : marked.length + vis.length = (vis ++ marked).length := by
          rw [List.length_append]; omega
        have elen2 : reps.length + 1 = (key :: reps).length := rfl
        rw [elen, elen2]
        by_cases hsz : (vis ++ marked).length = keys.length
        · rw [if_pos hsz]
          refine fin (vis ++ marked) (key :: reps) g2 g3 g4 g5 ?_
          have hsub : vis ++ marked ⊆ keys := fun x hx => (hk x).mp (g3 x hx)
          have hp := (g1.subperm hsub).perm_of_length_le (by omega)
          intro x hx
          exact hp.mem_iff.mpr hx
        · rw [if_neg hsz]
          refine ih (pre ++ [key]) (vis ++ marked) (key :: reps) hpre' g1 g2 g3 g4 g5 ?_
          intro x hx
          rcases List.mem_append.mp hx with hx | hx
          · exact List.mem_append_right _ (h6 x hx)
          · simp only [List.mem_singleton] at hx; subst hx
            exact List.mem_append_left _ ((hvis x).mpr .refl)

theorem atKey_some {vs : List (Idx × UInt8)} (hn : (vs.map Prod.fst).Nodup) (v : Idx) (c : UInt8) :
    atKey vs v = some c ↔ (v, c) ∈ vs := by
  unfold atKey
  induction vs with
  | nil => simp
  | cons p vs ih =>
    obtain ⟨w, e⟩ := p
    simp only [List.map_cons, List.nodup_cons] at hn
    by_cases h : w = v
    · subst h
      simp only [List.find?_cons, beq_self_eq_true, Option.map_some, Option.some.injEq, List.mem_cons,
        Prod.mk.injEq, true_and]
      constructor
      · intro h; exact .inl h.symm
      · rintro (h | h)
        · exact h.symm
        · exact (hn.1 (List.mem_map_of_mem (f := Prod.fst) h)).elim
    · have : ((w, e).1 == v) = false := by simpa using h
      simp only [List.find?_cons, this, List.mem_cons, Prod.mk.injEq, ih hn.2]
      constructor
      · exact .inr
      · rintro (⟨h', _⟩ | h')
        · exact (h h'.symm).elim
        · exact h'

theorem edge_iff {vs : List (Idx × UInt8)} (hn : (vs.map Prod.fst).Nodup) (v w : Idx) :
    Edge (atKey vs) v w ↔ Joined vs v w := by
  unfold Edge Joined
  constructor
  · rintro ⟨c, hc, hw⟩
    obtain ⟨b, hb, ht, rfl⟩ := (mem_nbrs c v w).mp hw
    exact ⟨c, b, (atKey_some hn v c).mp hc, hb, ht, rfl⟩
  · rintro ⟨c, b, hc, hb, ht, rfl⟩
    exact ⟨c, (atKey_some hn v c).mpr hc, (mem_nbrs c v _).mpr ⟨b, hb, ht, rfl⟩⟩

theorem isSome_iff {vs : List (Idx × UInt8)} (hn : (vs.map Prod.fst).Nodup) (v : Idx) :
    (atKey vs v).isSome = true ↔ v ∈ vs.map Prod.fst := by
  rw [Option.isSome_iff_exists]
  constructor
  · rintro ⟨c, hc⟩
    exact List.mem_map_of_mem (f := Prod.fst) ((atKey_some hn v c).mp hc)
  · intro h
    obtain ⟨p, hp, rfl⟩ := List.mem_map.mp h
    exact ⟨p.2, (atKey_some hn _ _).mpr hp⟩

end Topo

/-- C36.  For every vertex map (one entry per vertex) with symmetric edges, in whatever order the
hash map is iterated: if some edge leads to a vertex that is not in the map the call throws;
otherwise it returns the number of connected pieces of the vertex graph. -/
theorem C36_connectivity (vs : List (Idx × UInt8)) (hn : (vs.map Prod.fst).Nodup)
    (hs : SymmetricEdges vs) :
    (Dangling vs → Topo.connectivity vs = .throw) ∧
    (¬ Dangling vs → ∃ n, Topo.connectivity vs = .done n ∧ HasPieces vs n) := by
  have hE : Topo.Edge (Topo.atKey vs) = Joined vs := by
    funext v w; exact propext (Topo.edge_iff hn v w)
  have hk := Topo.isSome_iff hn
  have hsym : ∀ v w, Topo.Edge (Topo.atKey vs) v w → (Topo.atKey vs w).isSome = true →
      Topo.Edge (Topo.atKey vs) w v := by
    intro v w h1 h2
    rw [hE] at h1 ⊢
    exact hs v w h1 ((hk w).mp h2)
  have h := Topo.components_spec hn hk hsym (vs.map Prod.fst) [] [] [] (by simp) (by simp) (by simp)
    (by simp) (by simp) (by simp) (by simp)
  simp only [List.length_nil, List.length_map] at h
  change Topo.LoopResult _ _ (Topo.connectivity vs) at h
  constructor
  · intro hd
    cases hc : Topo.connectivity vs with
    | running => rw [hc] at h; exact h.elim
    | throw => rfl
    | done n =>
      rw [hc] at h
      obtain ⟨v, w, h1, h2⟩ := hd
      obtain ⟨reps, -, -, -, -, h3⟩ := h
      exact (h2 ((hk w).mp (h3 v w (by rw [hE]; exact h1)))).elim
  · intro hd
    cases hc : Topo.connectivity vs with
    | running => rw [hc] at h; exact h.elim
    | throw =>
      rw [hc] at h
      obtain ⟨v, w, h1, h2⟩ := h
      rw [hE] at h1
      refine (hd ⟨v, w, h1, fun hw => ?_⟩).elim
      have := (hk w).mpr hw
      rw [h2] at this
      simp at this
    | done n =>
      rw [hc] at h
      obtain ⟨reps, h1, h2, h3, h4, -⟩ := h
      rw [hE] at h3 h4
      exact ⟨n, rfl, reps, h1, h2, h3, h4⟩

theorem connected_symm {vs : List (Idx × UInt8)} (hs : SymmetricEdges vs) {a b : Idx}
    (h : Connected vs a b) (hb : b ∈ vs.map Prod.fst) : Connected vs b a := by
  induction h with
  | refl => exact .refl
  | tail _ he ih =>
    refine ReflTransGen.head (hs _ _ he hb) (ih ?_)
    obtain ⟨c, _, hc, -⟩ := he
    exact List.mem_map_of_mem (f := Prod.fst) hc

/-- The number of pieces is determined by the graph. -/
theorem hasPieces_unique {vs : List (Idx × UInt8)} (hs : SymmetricEdges vs) {n m : Nat}
    (hn : HasPieces vs n) (hm : HasPieces vs m) : n = m := by
  have key : ∀ {n m : Nat}, HasPieces vs n → HasPieces vs m → n ≤ m := by
    rintro n m ⟨r1, rfl, a1, a2, a3⟩ ⟨r2, rfl, b1, b2, b3⟩
    have hch : ∀ r : Idx, ∃ q, r ∈ r1 → q ∈ r2 ∧ Connected vs q r := by
      intro r
      by_cases hr : r ∈ r1
      · obtain ⟨q, hq, hc⟩ := b3 r (a1 r hr)
        exact ⟨q, fun _ => ⟨hq, hc⟩⟩
      · exact ⟨r, fun h => (hr h).elim⟩
    choose f hf using hch
    have hpw : r1.Pairwise (fun a b => f a ≠ f b) := by
      refine a2.imp_of_mem ?_
      intro a b ha hb hab he
      apply hab
      have h1 := (hf a ha).2
      have h2 := (hf b hb).2
      rw [← he] at h2
      exact (connected_symm hs h1 (a1 a ha)).trans h2
    have hnd : (r1.map f).Nodup := List.pairwise_map.mpr hpw
    have hsub : r1.map f ⊆ r2 := by
      intro x hx
      obtain ⟨a, ha, rfl⟩ := List.mem_map.mp hx
      exact (hf a ha).1
    have := (hnd.subperm hsub).length_le
    simpa using this
  exact le_antisymm (key hn hm) (key hm hn)

/-- C36, order independence: iterating the hash map in another order gives the same outcome. -/
theorem C36_any_order (vs vs' : List (Idx × UInt8)) (hp : vs.Perm vs')
    (hn : (vs.map Prod.fst).Nodup) (hs : SymmetricEdges vs) :
    Topo.connectivity vs = Topo.connectivity vs' := by
  have hJ : ∀ v w, Joined vs v w ↔ Joined vs' v w := by
    intro v w; unfold Joined; simp only [hp.mem_iff]
  have hJ' : Joined vs = Joined vs' := by funext v w; exact propext (hJ v w)
  have hmem : ∀ v, v ∈ vs.map Prod.fst ↔ v ∈ vs'.map Prod.fst := fun v => (hp.map _).mem_iff
  have hn' : (vs'.map Prod.fst).Nodup := (hp.map _).nodup_iff.mp hn
  have hs' : SymmetricEdges vs' := by
    intro v w h1 h2
    rw [← hJ'] at h1 ⊢
    exact hs v w h1 ((hmem w).mpr h2)
  have hd : Dangling vs ↔ Dangling vs' := by
    unfold Dangling; rw [hJ']; simp only [hmem]
  obtain ⟨t1, d1⟩ := C36_connectivity vs hn hs
  obtain ⟨t2, d2⟩ := C36_connectivity vs' hn' hs'
  by_cases h : Dangling vs
  · rw [t1 h, t2 (hd.mp h)]
  · obtain ⟨n, e1, p1⟩ := d1 h
    obtain ⟨m, e2, p2⟩ := d2 (fun h' => h (hd.mpr h'))
    have p2' : HasPieces vs m := by
      obtain ⟨reps, q1, q2, q3, q4⟩ := p2
      refine ⟨reps, q1, fun r hr => (hmem r).mpr (q2 r hr), ?_, ?_⟩
      · unfold Connected; rw [hJ']; exact q3
      · unfold Connected; rw [hJ']; exact fun v hv => q4 v ((hmem v).mp hv)
    rw [e1, e2, hasPieces_unique hs p1 p2']

/-- Two separate edges: two pieces; without one end the call throws. -/
example : Topo.connectivity [(⟨0, 0, 0⟩, 32), (⟨5, 0, 0⟩, 2), (⟨1, 0, 0⟩, 16), (⟨5, 0, 1⟩, 1)] = .done 2 ∧
    Topo.connectivity [(⟨0, 0, 0⟩, 32), (⟨5, 0, 0⟩, 2), (⟨1, 0, 0⟩, 16)] = .throw := by
  decide +kernel

example : SymmetricEdges [(⟨0, 0, 0⟩, 32), (⟨1, 0, 0⟩, 16)] := by
  rintro v w ⟨c, b, h1, hb, ht, rfl⟩ _
  simp only [List.mem_cons, Prod.mk.injEq, List.not_mem_nil, or_false] at h1
  rcases h1 with ⟨rfl, rfl⟩ | ⟨rfl, rfl⟩
  · match b, hb, ht with
    | 5, _, _ => exact ⟨16, 4, by simp [bitTarget], by omega, by decide, by simp [bitTarget]⟩
  · match b, hb, ht with
    | 4, _, _ => exact ⟨32, 5, by simp [bitTarget], by omega, by decide, by simp [bitTarget]⟩

end Verif
