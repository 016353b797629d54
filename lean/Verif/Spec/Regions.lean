import Verif.Grid
import Mathlib.Logic.Relation
import Mathlib.Data.List.Perm.Subperm
import Mathlib.Data.List.Nodup
import Mathlib.Data.List.Perm.Basic
import Mathlib.Data.List.Sort

/-!
# Specification: regions and their numbering

What "connected components numbered 1..n in scan order" means, without reference to any algorithm.
-/

namespace Verif.Spec

open Verif Relation

/-- Two cells share a face: they differ by one on exactly one axis. -/
def FaceAdj (i j : Idx) : Prop := |i.x - j.x| + |i.y - j.y| + |i.z - j.z| = 1

/-- One step of a path: both cells take part, they share a face, and they are compatible. -/
def PathStep (elig : Idx → Prop) (compat : Idx → Idx → Prop) (i j : Idx) : Prop :=
  elig i ∧ elig j ∧ FaceAdj i j ∧ compat i j

/-- There is a path from `i` to `j` (possibly of length zero). -/
def Linked (elig : Idx → Prop) (compat : Idx → Idx → Prop) : Idx → Idx → Prop :=
  ReflTransGen (PathStep elig compat)

/-- `i` is the first cell of its region in scan (memory) order. -/
def First (d : Dims) (elig : Idx → Prop) (compat : Idx → Idx → Prop) (i : Idx) : Prop :=
  elig i ∧ ∀ j, elig j → Linked elig compat i j → d.lin i ≤ d.lin j

/-- `lab` numbers the regions of the participating cells `1..n` by first cell in scan order. -/
structure Labelling (d : Dims) (elig : Idx → Prop) (compat : Idx → Idx → Prop)
    (lab : Idx → Nat) (n : Nat) : Prop where
  /-- labels lie in `1..n` -/
  range : ∀ i, elig i → 1 ≤ lab i ∧ lab i ≤ n
  /-- same label iff linked by a path -/
  same : ∀ i j, elig i → elig j → (lab i = lab j ↔ Linked elig compat i j)
  /-- no gaps -/
  used : ∀ k, 1 ≤ k → k ≤ n → ∃ i, elig i ∧ lab i = k
  /-- numbered in the order of the first cells -/
  order : ∀ i j, First d elig compat i → First d elig compat j →
    (lab i < lab j ↔ d.lin i < d.lin j)

/-- Every region has a first cell. -/
theorem exists_first (d : Dims) (elig : Idx → Prop) (compat : Idx → Idx → Prop)
    (i : Idx) (hi : elig i) :
    ∃ f, First d elig compat f ∧ Linked elig compat i f := by
  classical
  have hex : ∃ n, ∃ f, elig f ∧ Linked elig compat i f ∧ d.lin f = n :=
    ⟨d.lin i, i, hi, ReflTransGen.refl, rfl⟩
  obtain ⟨f, hf, hc, hn⟩ := Nat.find_spec hex
  refine ⟨f, ⟨hf, ?_⟩, hc⟩
  intro j hj hfj
  have := Nat.find_min' hex ⟨j, hj, hc.trans hfj, rfl⟩
  omega

/-- The specification determines labels and number of regions. -/
theorem Labelling.unique {d : Dims} {elig : Idx → Prop} {compat : Idx → Idx → Prop}
    {lab lab' : Idx → Nat} {n n' : Nat}
    (hin : ∀ i, elig i → d.inB i = true)
    (h : Labelling d elig compat lab n) (h' : Labelling d elig compat lab' n') :
    n = n' ∧ ∀ i, elig i → lab i = lab' i := by
  classical
  let Fs := d.all.filter (fun i => decide (First d elig compat i))
  have hFs : ∀ i, i ∈ Fs ↔ First d elig compat i := by
    intro i
    simp only [Fs, List.mem_filter, decide_eq_true_eq]
    exact ⟨fun h => h.2, fun h => ⟨Dims.mem_all.mpr (hin i h.1), h⟩⟩
  have hsorted : Fs.Pairwise (fun a b => d.lin a < d.lin b) :=
    (Dims.pairwise_all d).sublist List.filter_sublist
  have key : ∀ (lab : Idx → Nat) (n : Nat), Labelling d elig compat lab n →
      Fs.map lab = List.range' 1 n := by
    intro lab n h
    have hlt : (Fs.map lab).Pairwise (· < ·) := by
      rw [List.pairwise_map]
      refine (List.pairwise_iff_forall_sublist.mpr ?_)
      intro a b hab
      have ha : a ∈ Fs := hab.subset (by simp)
      have hb : b ∈ Fs := hab.subset (by simp)
      exact (h.order a b ((hFs a).mp ha) ((hFs b).mp hb)).mpr
        (List.pairwise_iff_forall_sublist.mp hsorted hab)
    have hlt2 : (List.range' 1 n).Pairwise (· < ·) := List.pairwise_lt_range'
    have hmem : ∀ k, k ∈ Fs.map lab ↔ k ∈ List.range' 1 n := by
      intro k
      simp only [List.mem_map, List.mem_range'_1]
      constructor
      · rintro ⟨i, hi, rfl⟩
        have := h.range i ((hFs i).mp hi).1
        omega
      · rintro ⟨h1, h2⟩
        obtain ⟨i, hi, hk⟩ := h.used k h1 (by omega)
        obtain ⟨f, hf, hc⟩ := exists_first d elig compat i hi
        refine ⟨f, (hFs f).mpr hf, ?_⟩
        rw [← hk]
        exact ((h.same i f hi hf.1).mpr hc).symm
    have nd1 : (Fs.map lab).Nodup := hlt.imp fun h => Nat.ne_of_lt h
    have nd2 : (List.range' 1 n).Nodup := hlt2.imp fun h => Nat.ne_of_lt h
    exact ((List.perm_ext_iff_of_nodup nd1 nd2).mpr hmem).eq_of_pairwise
      (fun a b _ _ h1 h2 => absurd (Nat.lt_trans h1 h2) (Nat.lt_irrefl _)) hlt hlt2
  have e1 := key lab n h
  have e2 := key lab' n' h'
  have hn : n = n' := by
    have a := congrArg List.length e1
    have b := congrArg List.length e2
    simp at a b
    omega
  refine ⟨hn, ?_⟩
  subst hn
  intro i hi
  obtain ⟨f, hf, hc⟩ := exists_first d elig compat i hi
  rw [(h.same i f hi hf.1).mpr hc, (h'.same i f hi hf.1).mpr hc]
  have hff := (hFs f).mpr hf
  have : Fs.map lab = Fs.map lab' := by rw [e1, e2]
  exact (List.map_inj_left.mp this) f hff

end Verif.Spec
