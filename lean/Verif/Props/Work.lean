import Verif.Work
import Verif.Props.SdfGen
import Verif.Props.CollisionMap
import Mathlib.Algebra.BigOperators.Group.Finset.Basic
import Mathlib.Algebra.Order.BigOperators.Group.Finset
import Mathlib.Data.Finset.Card
import Mathlib.Order.Interval.Finset.Nat
import Mathlib.Data.Nat.Sqrt

/-!
# C141: how much work the distance transform takes
-/

namespace Verif

open Spec

namespace DField

namespace Work

variable {d : Dims} {S : List Idx}

/-- No entry made while bucket `b` is processed goes beyond this bucket. -/
def reach (b : Nat) : Nat := b + 2 * Nat.sqrt b + 3

theorem reach_mono {a b : Nat} (h : a ≤ b) : reach a ≤ reach b := by
  unfold reach
  have := Nat.sqrt_le_sqrt h
  omega

theorem step_le {b : Nat} {e : BCell} (he : EntryOK d S b e) {δ δ' : Idx} (hδ : δ ∈ nbhd b δ') :
    dsq (e.loc + δ) e.cp ≤ reach b := by
  obtain ⟨-, -, he3, -⟩ := he
  unfold reach
  by_cases hb : b = 0
  · subst hb
    have heq : e.loc = e.cp := dsq_eq_zero.mp he3
    obtain ⟨hm, -⟩ := mem_nbhd_zero.mp hδ
    have h := dsq_self_add e.cp δ
    rw [mem_dirs27] at hm
    obtain ⟨⟨a1, a2⟩, ⟨b1, b2⟩, c1, c2⟩ := hm
    have hx : δ.x ^ 2 ≤ 1 := by nlinarith
    have hy : δ.y ^ 2 ≤ 1 := by nlinarith
    have hz : δ.z ^ 2 ≤ 1 := by nlinarith
    rw [heq]
    omega
  · obtain ⟨-, hf, -⟩ := (mem_nbhd_pos (by omega)).mp hδ
    have hadd := dsq_add e.loc δ e.cp
    rw [he3] at hadd
    have hsq : (e.loc.x - e.cp.x).natAbs ≤ Nat.sqrt b ∧ (e.loc.y - e.cp.y).natAbs ≤ Nat.sqrt b ∧
        (e.loc.z - e.cp.z).natAbs ≤ Nat.sqrt b := by
      unfold dsq at he3
      simp only [pow_two] at he3
      refine ⟨Nat.le_sqrt.mpr ?_, Nat.le_sqrt.mpr ?_, Nat.le_sqrt.mpr ?_⟩ <;> omega
    obtain ⟨hx, hy, hz⟩ := hsq
    rcases face_cases hf with rfl | rfl | rfl | rfl | rfl | rfl <;> simp at hadd <;> omega

/-- Relaxing a neighbour changes nothing, or improves it and appends it to its bucket. -/
theorem relax_cases {b : Nat} {s : St} (h : Inv d S (b + 1) s) (hS : ∀ p ∈ S, d.inB p = true) {e : BCell}
    (he : EntryOK d S b e) (δ : Idx) :
    ((∀ v, (relax b e s δ).field.get v = s.field.get v) ∧ ∀ k, (relax b e s δ).bucket k = s.bucket k) ∨
    (better (dsq (e.loc + δ) e.cp) (s.field.get (e.loc + δ)).dist = true ∧ ∃ c : BCell, c.loc = e.loc + δ ∧
      c.dist = some (dsq (e.loc + δ) e.cp) ∧
      (∀ v, (relax b e s δ).field.get v = if e.loc + δ = v then c else s.field.get v) ∧
      ∀ k, (relax b e s δ).bucket k = if k = dsq (e.loc + δ) e.cp then s.bucket k ++ [c] else s.bucket k) := by
  obtain ⟨-, he2, -, -⟩ := he
  unfold relax
  rw [h.dims]
  by_cases hin : d.inB (e.loc + δ) = true
  · have hmax : ¬ maxSq d < dsq (e.loc + δ) e.cp := Nat.not_lt.mpr (dsq_le_maxSq hin (hS _ he2))
    simp only [hin, if_true, hmax, if_false]
    by_cases hbet : better (dsq (e.loc + δ) e.cp) (s.field.get (e.loc + δ)).dist = true
    · right
      simp only [hbet, if_true]
      have hlt : dsq (e.loc + δ) e.cp < s.q.length := by rw [h.qlen]; omega
      have hin' : s.field.dims.inB (e.loc + δ) = true := by rw [h.dims]; exact hin
      refine ⟨trivial, ⟨some (dsq (e.loc + δ) e.cp), dirNum δ, e.loc + δ, e.cp⟩, rfl, rfl, fun v => ?_, fun k => ?_⟩
      · rw [Grid.get_set h.wf]
        simp [hin']
      · simp only [St.bucket, bucket_modify _ _ _ _ hlt]
    · left
      simp only [hbet]
      exact ⟨fun _ => rfl, fun _ => rfl⟩
  · left
    simp only [hin]
    exact ⟨fun _ => rfl, fun _ => rfl⟩

/-- What relaxing and clearing keep, processing a bucket keeps. -/
theorem processBucket_keeps (hd : maxSq d < 2 ^ 31) {b : Nat} (hb : b ≤ maxSq d) (hS : ∀ p ∈ S, d.inB p = true)
    (P : St → Prop)
    (hr : ∀ s e δ' δ, Inv d S (b + 1) s → EntryOK d S b e → δ ∈ nbhd b δ' → P s → P (relax b e s δ))
    (hc : ∀ s, P s → P { s with q := s.q.set b [] }) {s : St} (h : Inv d S b s) (hP : P s) :
    P (processBucket s b) := by
  have hi32 : i32 b = true := by
    unfold i32; simp only [Bool.and_eq_true, decide_eq_true_eq]; omega
  have hfold : ∀ (e : BCell) (δ' : Idx) (l : List Idx), EntryOK d S b e → (∀ δ ∈ l, δ ∈ nbhd b δ') →
      ∀ s, Inv d S (b + 1) s → P s → P (l.foldl (relax b e) s) := by
    intro e δ' l he
    induction l with
    | nil => intro _ s _ h; exact h
    | cons a l ih =>
      intro hl s hi h
      have ha := hl a (List.mem_cons_self ..)
      exact ih (fun δ hδ => hl δ (List.mem_cons_of_mem _ hδ)) _ (relax_spec hd hi hS he ha).1 (hr s e δ' a hi he ha h)
  have hcell : ∀ (e : BCell), EntryOK d S b e → Fwd e → ∀ s, Inv d S (b + 1) s → P s → P (processCell b s e) := by
    intro e he hf s hi h
    obtain ⟨δ', hδ', hdir, -⟩ := hf
    have hs : ({ s with ub := s.ub || !i32 b } : St) = s := by rw [hi32]; simp
    have hr' := dirNum_range δ' hδ'
    have hnr : ¬ (e.dir < 0 ∨ e.dir > 26) := by rw [hdir]; omega
    have hD : (if b > 1 then 1 else b) ∈ [0, 1] := by
      simp only [List.mem_cons, List.not_mem_nil, or_false]; split <;> omega
    have ht := neighborhoods_dirNum δ' hδ' _ hD
    have e1 : processCell b s e = (nbhd b δ').foldl (relax b e) s := by
      unfold processCell
      simp only [hs, hnr, if_false]
      rw [hdir, ht]
      rfl
    rw [e1]
    exact hfold e δ' _ he (fun _ h => h) s hi h
  have hcells : ∀ l : List BCell, (∀ e ∈ l, EntryOK d S b e ∧ Fwd e) → ∀ s, Inv d S (b + 1) s → P s →
      P (l.foldl (processCell b) s) := by
    intro l
    induction l with
    | nil => intro _ s _ h; exact h
    | cons a l ih =>
      intro hl s hi h
      obtain ⟨ha1, ha2⟩ := hl a (List.mem_cons_self ..)
      exact ih (fun e he => hl e (List.mem_cons_of_mem _ he)) _ (processCell_spec hd hb hS ha1 ha2 hi).1
        (hcell a ha1 ha2 s hi h)
  exact hc _ (hcells (s.bucket b) (fun e he => ⟨h.entry b e he, h.fwd b e (Nat.le_refl _) he⟩) s
    (h.weaken (Nat.le_succ _)) hP)

/-- Entries wait in buckets not below the distance of their cell and not beyond `B`; no cell waits twice in one bucket. -/
structure Waiting (B : Nat) (s : St) : Prop where
  val : ∀ k e, e ∈ s.bucket k → ValLE s e.loc k
  nodup : ∀ k, 1 ≤ k → ((s.bucket k).map (·.loc)).Nodup
  win : ∀ k e, e ∈ s.bucket k → k ≤ B

theorem not_better {s : St} {v : Idx} {n k : Nat} (h : better n (s.field.get v).dist = true) (hv : ValLE s v k) : n < k := by
  obtain ⟨m, hm, hk⟩ := hv
  rw [hm] at h
  simp only [better, decide_eq_true_eq] at h
  omega

theorem valLE_step {s s' : St} {n : Idx} {c : BCell} {new : Nat} (hb : better new (s.field.get n).dist = true)
    (hc : c.dist = some new) (hget : ∀ v, s'.field.get v = if n = v then c else s.field.get v) {v : Idx} {k : Nat}
    (h : ValLE s v k) : ValLE s' v k := by
  unfold ValLE
  rw [hget]
  by_cases hv : n = v
  · subst hv
    rw [if_pos rfl]
    exact ⟨new, hc, (not_better hb h).le⟩
  · rw [if_neg hv]; exact h

theorem waiting_relax {b : Nat} {s : St} (hi : Inv d S (b + 1) s) (hS : ∀ p ∈ S, d.inB p = true) {e : BCell}
    (he : EntryOK d S b e) {δ δ' : Idx} (hδ : δ ∈ nbhd b δ') (h : Waiting (reach b) s) :
    Waiting (reach b) (relax b e s δ) := by
  rcases relax_cases hi hS he δ with ⟨h1, h2⟩ | ⟨hb, c, hloc, hc, h1, h2⟩
  · refine ⟨fun k e' he' => ?_, fun k hk => ?_, fun k e' he' => ?_⟩
    · rw [h2] at he'
      unfold ValLE
      rw [h1]
      exact h.val k e' he'
    · rw [h2]; exact h.nodup k hk
    · rw [h2] at he'; exact h.win k e' he'
  · refine ⟨fun k e' he' => ?_, fun k hk => ?_, fun k e' he' => ?_⟩
    · rw [h2] at he'
      split at he'
      · rename_i hk
        rcases List.mem_append.mp he' with he' | he'
        · exact valLE_step hb hc h1 (h.val k e' he')
        · rw [List.mem_singleton] at he'
          subst he'
          unfold ValLE
          rw [h1, hloc, if_pos rfl]
          exact ⟨_, hc, hk.ge⟩
      · exact valLE_step hb hc h1 (h.val k e' he')
    · rw [h2]
      split
      · rename_i hk'
        rw [List.map_append, List.map_singleton, List.nodup_append]
        refine ⟨h.nodup k hk, List.nodup_singleton _, ?_⟩
        intro a ha b' hb' hab
        rw [List.mem_singleton] at hb'
        rw [List.mem_map] at ha
        obtain ⟨e', he', rfl⟩ := ha
        have hv := h.val k e' he'
        rw [hab, hb', hloc] at hv
        have := not_better hb hv
        omega
      · exact h.nodup k hk
    · rw [h2] at he'
      split at he'
      · rename_i hk
        rw [hk]
        exact step_le he hδ
      · exact h.win k e' he'

theorem bucket_clear (s : St) (b k : Nat) : ({ s with q := s.q.set b [] } : St).bucket k = if k = b then [] else s.bucket k := by
  simp only [St.bucket, bucket_set_nil]

theorem waiting_clear {B b : Nat} {s : St} (h : Waiting B s) : Waiting B { s with q := s.q.set b [] } := by
  refine ⟨fun k e he => ?_, fun k hk => ?_, fun k e he => ?_⟩
  · rw [bucket_clear] at he
    split at he
    · simp at he
    · exact h.val k e he
  · rw [bucket_clear]
    split
    · simp
    · exact h.nodup k hk
  · rw [bucket_clear] at he
    split at he
    · simp at he
    · exact h.win k e he

theorem waiting_after (hd : maxSq d < 2 ^ 31) (hS : ∀ p ∈ S, d.inB p = true) {s : St} (h : Inv d S 0 s)
    (h0 : ∀ b, b ≠ 0 → s.bucket b = []) (hv : ∀ e ∈ s.bucket 0, ValLE s e.loc 0) :
    ∀ t, t ≤ maxSq d + 1 → Waiting (reach (t - 1)) (after s t) := by
  intro t
  induction t with
  | zero =>
    intro _
    have e : after s 0 = s := rfl
    rw [e]
    refine ⟨fun k e he => ?_, fun k hk => ?_, fun k e he => ?_⟩
    · by_cases hk : k = 0
      · subst hk; exact hv e he
      · rw [h0 k hk] at he; simp at he
    · rw [h0 k (by omega)]; simp
    · by_cases hk : k = 0
      · omega
      · rw [h0 k hk] at he; simp at he
  | succ t ih =>
    intro ht
    rw [after_succ]
    have hw := ih (by omega)
    have hw' : Waiting (reach t) (after s t) :=
      ⟨hw.val, hw.nodup, fun k e he => (hw.win k e he).trans (reach_mono (by omega))⟩
    exact processBucket_keeps hd (by omega) hS (Waiting (reach t))
      (fun s e δ' δ hi he hδ h => waiting_relax hi hS he hδ h) (fun s h => waiting_clear h)
      (after_inv hd hS h t (by omega)) hw'

/-- The cell `v` has a distance of at most `b`, and waits in no bucket beyond `b` and `B`. -/
def Settled (v : Idx) (b B : Nat) (s : St) : Prop :=
  ValLE s v b ∧ ∀ k e, b < k → e ∈ s.bucket k → e.loc = v → k ≤ B

theorem settled_relax {t : Nat} {s : St} (hi : Inv d S (t + 1) s) (hS : ∀ p ∈ S, d.inB p = true) {e : BCell}
    (he : EntryOK d S t e) (δ : Idx) {v : Idx} {b B : Nat} (h : Settled v b B s) : Settled v b B (relax t e s δ) := by
  rcases relax_cases hi hS he δ with ⟨h1, h2⟩ | ⟨hb, c, hloc, hc, h1, h2⟩
  · refine ⟨?_, fun k e' hk he' => ?_⟩
    · unfold ValLE
      rw [h1]
      exact h.1
    · rw [h2] at he'; exact h.2 k e' hk he'
  · refine ⟨valLE_step hb hc h1 h.1, fun k e' hk he' hv => ?_⟩
    rw [h2] at he'
    split at he'
    · rename_i hk'
      rcases List.mem_append.mp he' with he' | he'
      · exact h.2 k e' hk he' hv
      · rw [List.mem_singleton] at he'
        subst he'
        rw [hloc] at hv
        have := not_better hb (hv ▸ h.1)
        omega
    · exact h.2 k e' hk he' hv

theorem settled_after (hd : maxSq d < 2 ^ 31) (hS : ∀ p ∈ S, d.inB p = true) {s : St} (h : Inv d S 0 s)
    {v : Idx} {b B t : Nat} (h0 : Settled v b B (after s t)) :
    ∀ k, t + k ≤ maxSq d + 1 → Settled v b B (after s (t + k)) := by
  intro k
  induction k with
  | zero => intro _; exact h0
  | succ k ih =>
    intro hk
    rw [← Nat.add_assoc, after_succ]
    exact processBucket_keeps hd (by omega) hS (Settled v b B)
      (fun s e δ' δ hi he hδ h => settled_relax hi hS he δ h)
      (fun s h => ⟨h.1, fun k e hk he hv => by
        rw [bucket_clear] at he
        split at he
        · simp at he
        · exact h.2 k e hk he hv⟩)
      (after_inv hd hS h (t + k) (by omega)) (ih (by omega))

/-- A cell that waits in two buckets when their turns come waits in buckets close to each other. -/
theorem twice (hd : maxSq d < 2 ^ 31) (hS : ∀ p ∈ S, d.inB p = true) {s : St} (h : Inv d S 0 s)
    (h0 : ∀ b, b ≠ 0 → s.bucket b = []) (hv : ∀ e ∈ s.bucket 0, ValLE s e.loc 0) {b b' : Nat} (hbb : b < b')
    (hb' : b' ≤ maxSq d) {e e' : BCell} (he : e ∈ (after s b).bucket b) (he' : e' ∈ (after s b').bucket b')
    (hl : e'.loc = e.loc) : b' ≤ reach (b - 1) := by
  have hw := waiting_after hd hS h h0 hv b (by omega)
  have hs : Settled e.loc b (reach (b - 1)) (after s b) := ⟨hw.val b e he, fun k e' _ h _ => hw.win k e' h⟩
  have := settled_after hd hS h hs (b' - b) (by omega)
  rw [show b + (b' - b) = b' by omega] at this
  exact this.2 b' e' hbb he' hl

theorem seed_length (pts : List Idx) : ∀ (s s' : St), pts.foldl seed (some s) = some s' → 0 < s.q.length →
    (s'.bucket 0).length = (s.bucket 0).length + pts.length := by
  induction pts with
  | nil => intro s s' h _; simp only [List.foldl_nil, Option.some.injEq] at h; subst h; rfl
  | cons a l ih =>
    intro s s' h hq
    rw [List.foldl_cons] at h
    by_cases ha : s.field.dims.inB a = true
    · have hs : seed (some s) a = some { s with
          field := s.field.set a ⟨some 0, dirNum ⟨0, 0, 0⟩, a, a⟩
          q := s.q.modify 0 (· ++ [⟨some 0, dirNum ⟨0, 0, 0⟩, a, a⟩]) } := by simp [seed, ha]
      rw [hs] at h
      have := ih _ s' h (by simpa using hq)
      rw [this]
      simp only [St.bucket, bucket_modify _ _ _ _ hq, if_true, List.length_append, List.length_cons, List.length_nil]
      omega
    · have hs : seed (some s) a = none := by simp [seed, ha]
      rw [hs, seed_none] at h
      simp at h

theorem neighbours_le (b : Nat) (e : BCell) : neighbours b e ≤ 26 ∧ (1 ≤ b → neighbours b e ≤ 6) := by
  have h0 : ∀ l ∈ neighborhoods[0]'(by decide), l.length ≤ 26 := by decide
  have h1 : ∀ l ∈ neighborhoods[1]'(by decide), l.length ≤ 6 := by decide
  have key : ∀ (D n m : Nat) (hD : D < neighborhoods.length), (∀ l ∈ neighborhoods[D], l.length ≤ m) →
      (((neighborhoods[D]?).bind (·[n]?)).getD []).length ≤ m := by
    intro D n m hD h
    rw [List.getElem?_eq_getElem hD, Option.bind_some]
    cases hn : neighborhoods[D][n]? with
    | none => simp
    | some l => exact h l (List.mem_of_getElem? hn)
  unfold neighbours
  split
  · exact ⟨by omega, fun _ => by omega⟩
  · by_cases hb : b = 0
    · subst hb
      exact ⟨key 0 _ 26 (by decide) h0, fun h => by omega⟩
    · have hD : (if b > 1 then 1 else b) = 1 := by split <;> omega
      rw [hD]
      have := key 1 e.dir.toNat 6 (by decide) h1
      exact ⟨by omega, fun _ => this⟩

/-- Entries of the buckets after the first. -/
theorem entries_sum (hd : maxSq d < 2 ^ 31) (hS : ∀ p ∈ S, d.inB p = true) {s : St} (h : Inv d S 0 s)
    (h0 : ∀ b, b ≠ 0 → s.bucket b = []) (hv : ∀ e ∈ s.bucket 0, ValLE s e.loc 0) :
    ∑ b ∈ Finset.Icc 1 (maxSq d), entries (after s b) b ≤ d.size * (2 * Nat.sqrt (maxSq d) + 3) := by
  classical
  have hcard : ∀ b ∈ Finset.Icc 1 (maxSq d), entries (after s b) b =
      ∑ v ∈ d.all.toFinset, if ∃ e ∈ (after s b).bucket b, e.loc = v then 1 else 0 := by
    intro b hb
    rw [Finset.mem_Icc] at hb
    have hn := (waiting_after hd hS h h0 hv b (by omega)).nodup b hb.1
    have hl := List.toFinset_card_of_nodup hn
    rw [List.length_map] at hl
    unfold entries
    rw [← hl, ← Finset.card_filter]
    congr 1
    ext v
    simp only [List.mem_toFinset, List.mem_map, Finset.mem_filter, Dims.mem_all]
    constructor
    · rintro ⟨e, he, rfl⟩
      exact ⟨((after_inv hd hS h b (by omega)).entry b e he).1, e, he, rfl⟩
    · rintro ⟨-, e, he, rfl⟩
      exact ⟨e, he, rfl⟩
  rw [Finset.sum_congr rfl hcard, Finset.sum_comm]
  have hone : ∀ v ∈ d.all.toFinset,
      (∑ b ∈ Finset.Icc 1 (maxSq d), if ∃ e ∈ (after s b).bucket b, e.loc = v then 1 else 0) ≤
        2 * Nat.sqrt (maxSq d) + 3 := by
    intro v _
    rw [← Finset.card_filter]
    set A := (Finset.Icc 1 (maxSq d)).filter fun b => ∃ e ∈ (after s b).bucket b, e.loc = v with hA
    by_cases hne : A.Nonempty
    · have hmin := Finset.min'_mem A hne
      set m := A.min' hne
      rw [hA, Finset.mem_filter, Finset.mem_Icc] at hmin
      obtain ⟨⟨hm1, hm2⟩, e, he, hev⟩ := hmin
      have hsub : A ⊆ Finset.Icc m (m + 2 * Nat.sqrt (maxSq d) + 2) := by
        intro b hb
        have hle := Finset.min'_le A b hb
        rw [hA, Finset.mem_filter, Finset.mem_Icc] at hb
        obtain ⟨⟨hb1, hb2⟩, e', he', hev'⟩ := hb
        rw [Finset.mem_Icc]
        refine ⟨hle, ?_⟩
        by_cases heq : m = b
        · omega
        · have hlt : m < b := lt_of_le_of_ne hle heq
          have := twice hd hS h h0 hv hlt hb2 he he' (hev'.trans hev.symm)
          unfold reach at this
          have hs := Nat.sqrt_le_sqrt (show m - 1 ≤ maxSq d by omega)
          omega
      have := Finset.card_le_card hsub
      rw [Nat.card_Icc] at this
      omega
    · rw [Finset.not_nonempty_iff_eq_empty] at hne
      rw [hne]; simp
  calc _ ≤ ∑ v ∈ d.all.toFinset, (2 * Nat.sqrt (maxSq d) + 3) := Finset.sum_le_sum hone
    _ = _ := by
      rw [Finset.sum_const, List.toFinset_card_of_nodup (Dims.nodup_all d), Dims.length_all, smul_eq_mul]

theorem sum_split (f : Nat → Nat) (M : Nat) :
    ((List.range (M + 1)).map f).sum = f 0 + ∑ b ∈ Finset.Icc 1 M, f b := by
  induction M with
  | zero => simp
  | succ M ih =>
    rw [List.range_succ, List.map_append, List.sum_append, ih, Finset.sum_Icc_succ_top (by omega)]
    simp
    omega

theorem sum_const_le (l : List BCell) (f : BCell → Nat) (m : Nat) (h : ∀ e ∈ l, f e ≤ m) :
    (l.map f).sum ≤ m * l.length := by
  induction l with
  | nil => simp
  | cons a l ih =>
    simp only [List.map_cons, List.sum_cons, List.length_cons]
    have h1 := h a (List.mem_cons_self ..)
    have h2 := ih fun e he => h e (List.mem_cons_of_mem _ he)
    rw [Nat.mul_add]
    omega

end Work

end DField

open DField DField.Work

/-- C141, one field.  `BuildDistanceField` on any points inside the grid takes at most one queue entry per given point and
`2 √(nx² + ny² + nz²) + 3` per cell, and looks at 26 neighbours for each of the first and at 6 for each of the others. -/
theorem C141_field {d : Dims} (hd : SmallGrid d) {pts : List Idx} (hp : ∀ p ∈ pts, InBounds d p) :
    ∃ n v : Nat, DField.cost d pts = some (n, v) ∧
      n ≤ pts.length + d.nx * d.ny * d.nz * (2 * Nat.sqrt (d.nx * d.nx + d.ny * d.ny + d.nz * d.nz) + 3) ∧
      v ≤ 26 * pts.length + 6 * (d.nx * d.ny * d.nz * (2 * Nat.sqrt (d.nx * d.nx + d.ny * d.ny + d.nz * d.nz) + 3)) := by
  have hS : ∀ p ∈ pts, d.inB p = true := fun p h => inB_iff_spec.mpr (hp p h)
  obtain ⟨s0, e1, h, -, h0, -⟩ := (seed_spec (d := d) pts [] (start d) (by simp) (start_inv d)
    (by
      intro b _
      simp only [start, St.bucket, List.getD_eq_getElem?_getD, List.getElem?_replicate]
      split <;> rfl)
    (by
      intro v _ hv
      simp only [start, Grid.get_mk', ite_self] at hv
      exact absurd rfl hv)).2 hS
  rw [List.nil_append] at h
  have hlen : (s0.bucket 0).length = pts.length := by
    rw [seed_length pts (start d) s0 e1 (by simp [start])]
    simp [start, St.bucket]
  have hv : ∀ e ∈ s0.bucket 0, ValLE s0 e.loc 0 := by
    intro e he
    obtain ⟨-, a, b, -⟩ := h.entry 0 e he
    rw [dsq_eq_zero.mp b]
    exact ⟨0, h.src _ a, le_rfl⟩
  have hsum := entries_sum hd hS h h0 hv
  have hvis : ∑ b ∈ Finset.Icc 1 (maxSq d), visits (after s0 b) b ≤
      6 * ∑ b ∈ Finset.Icc 1 (maxSq d), entries (after s0 b) b := by
    rw [Finset.mul_sum]
    refine Finset.sum_le_sum fun b hb => ?_
    exact sum_const_le _ _ _ fun e _ => (neighbours_le b e).2 (Finset.mem_Icc.mp hb).1
  refine ⟨_, _, by unfold DField.cost; rw [e1]; rfl, ?_, ?_⟩
  · rw [sum_split]
    have : entries (after s0 0) 0 = pts.length := hlen
    rw [this]
    exact Nat.add_le_add_left hsum _
  · rw [sum_split]
    have : visits (after s0 0) 0 ≤ 26 * pts.length := by
      rw [← hlen]
      exact sum_const_le _ _ _ fun e _ => (neighbours_le 0 e).1
    have h6 := hvis.trans (Nat.mul_le_mul_left 6 hsum)
    exact Nat.add_le_add this h6

/-- C141, extraction.  The two distance fields of a signed distance field together take at most
`4 √(nx² + ny² + nz²) + 7` queue entries per cell, wherever the obstacles are. -/
theorem C141_extraction {d : Dims} (hd : SmallGrid d) {fill : Idx → Option Bool} {f : Idx → Bool} (hf : Answers d fill f) :
    ∃ n v : Nat, SdfGen.cost d fill = some (n, v) ∧
      n ≤ d.nx * d.ny * d.nz * (4 * Nat.sqrt (d.nx * d.nx + d.ny * d.ny + d.nz * d.nz) + 7) ∧
      v ≤ d.nx * d.ny * d.nz * (24 * Nat.sqrt (d.nx * d.nx + d.ny * d.ny + d.nz * d.nz) + 62) := by
  have hpart := SdfGen.partition_some (fill := fill) (f := f) (l := d.all)
    (fun i hi => hf i (inB_iff_spec.mp (Dims.mem_all.mp hi)))
  obtain ⟨n1, v1, c1, a1, b1⟩ := C141_field hd (pts := d.all.filter f)
    (fun p h => inB_iff_spec.mp (Dims.mem_all.mp (List.mem_of_mem_filter h)))
  obtain ⟨n2, v2, c2, a2, b2⟩ := C141_field hd (pts := d.all.filter fun i => !f i)
    (fun p h => inB_iff_spec.mp (Dims.mem_all.mp (List.mem_of_mem_filter h)))
  have hlen : (d.all.filter f).length + (d.all.filter fun i => !f i).length = d.nx * d.ny * d.nz := by
    have h1 := List.length_eq_length_filter_add (l := d.all) f
    rw [Dims.length_all] at h1
    have h2 : d.size = d.nx * d.ny * d.nz := by unfold Dims.size; ring
    omega
  refine ⟨n1 + n2, v1 + v2, by unfold SdfGen.cost; rw [hpart]; simp only [c1, c2], ?_, ?_⟩
  · generalize d.nx * d.ny * d.nz = N at *
    generalize Nat.sqrt (d.nx * d.nx + d.ny * d.ny + d.nz * d.nz) = q at *
    nlinarith
  · generalize d.nx * d.ny * d.nz = N at *
    generalize Nat.sqrt (d.nx * d.nx + d.ny * d.ny + d.nz * d.nz) = q at *
    nlinarith

namespace CompFns

variable {σ : Type} {F : CompFns σ} {d : Dims} {ok : σ → Prop} {elig : Idx → Prop}
  {adj : Idx → Idx → Prop}

/-- Cells without label. -/
def open_ (F : CompFns σ) (d : Dims) (s : σ) : Finset Idx := d.all.toFinset.filter fun i => F.getC s i = 0

theorem markLoop_steps (L : F.Lawful d ok elig adj) {start : Idx} {lbl : Nat} {s0 : σ}
    (hl0 : lbl ≠ 0) (hl : lbl < u32) (fuel : Nat) :
    ∀ (s : σ) (q seen : List Idx), MarkInv F ok elig adj start lbl s0 s q seen →
      d.size + q.length ≤ fuel + seen.length →
      ∃ s' seen', F.markLoop lbl fuel s q seen = some s' ∧ MarkInv F ok elig adj start lbl s0 s' [] seen' ∧
        F.markSteps lbl fuel s q seen + (F.open_ d s').card = (F.open_ d s).card := by
  induction fuel with
  | zero =>
    intro s q seen h hf
    cases q with
    | nil => exact ⟨s, seen, by simp [markLoop], h, by simp [markSteps]⟩
    | cons c q =>
      exfalso
      have : seen.length ≤ d.size :=
        length_le_size h.nodup (fun i hi => L.elig_inB i (h.sound i hi).1)
      simp at hf
      omega
  | succ fuel ih =>
    intro s q seen h hf
    cases q with
    | nil => exact ⟨s, seen, by simp [markLoop], h, by simp [markSteps]⟩
    | cons c q =>
      obtain ⟨h', hlen⟩ := h.step L hl0 hl
      obtain ⟨s', seen', e1, e2, e3⟩ := ih _ _ _ h' (by simp only [List.length_cons] at hf; omega)
      refine ⟨s', seen', by simpa [markLoop] using e1, e2, ?_⟩
      have hcs : c ∈ seen := h.qsub c (List.mem_cons_self ..)
      obtain ⟨hce, hc0, -⟩ := h.sound c hcs
      have hzero : F.getC s c = 0 := by
        rw [h.value]
        simp [hc0]
      have hset : F.open_ d (F.mark s c lbl) = (F.open_ d s).erase c := by
        ext j
        simp only [open_, Finset.mem_filter, Finset.mem_erase, List.mem_toFinset]
        by_cases hj : j = c
        · subst hj
          rw [L.get_mark_self s j lbl h.ok' hce hl]
          have : (lbl : Int) ≠ 0 := by exact_mod_cast hl0
          exact ⟨fun h => absurd h.2 this, fun h => absurd rfl h.1⟩
        · rw [L.get_mark_ne s c j lbl h.ok' (Ne.symm hj)]
          simp [hj]
      have hmem : c ∈ F.open_ d s := by
        simp only [open_, Finset.mem_filter, List.mem_toFinset, Dims.mem_all]
        exact ⟨L.elig_inB c hce, hzero⟩
      have hcard := Finset.card_erase_of_mem hmem
      have hpos : 0 < (F.open_ d s).card := Finset.card_pos.mpr ⟨c, hmem⟩
      rw [← hset] at hcard
      simp only [markSteps]
      omega

theorem sweep_steps (L : F.Lawful d ok elig adj) (hsz : d.size < u32) (l : List Idx) :
    ∀ (s : σ) (n : Nat), (∀ i ∈ l, d.inB i = true) → ok s → n + (F.open_ d s).card ≤ d.size →
      (∀ i, F.getC s i = 0 → i ∈ l) →
      F.sweepSteps d.size (d.size : Int) l s n 0 = (F.open_ d s).card := by
  induction l with
  | nil =>
    intro s n _ _ _ hz
    have : F.open_ d s = ∅ := by
      ext i
      simp only [open_, Finset.mem_filter, Finset.notMem_empty, iff_false, not_and]
      intro _ h
      simpa using hz i h
    simp [sweepSteps, this]
  | cons i l ih =>
    intro s n hl hok hn hz
    have hin := hl i (List.mem_cons_self ..)
    by_cases h0 : F.getC s i = 0
    · have he : elig i := by
        by_contra hne
        have := L.get_inelig s i hok hne
        omega
      have hmem : i ∈ F.open_ d s := by
        simp only [open_, Finset.mem_filter, List.mem_toFinset, Dims.mem_all]
        exact ⟨hin, h0⟩
      have hpos : 0 < (F.open_ d s).card := Finset.card_pos.mpr ⟨i, hmem⟩
      have hmod : (n + 1) % u32 = n + 1 := Nat.mod_eq_of_lt (by omega)
      have hinit : MarkInv F ok elig adj i (n + 1) s s [i] [i] := by
        refine ⟨hok, by simp, by simp, fun j hj => hj, by simp, ?_, ?_, ?_⟩
        · intro j hj
          simp at hj; subst hj
          exact ⟨he, h0, Relation.ReflTransGen.refl⟩
        · intro j; simp
        · intro j hj hj'; exact absurd hj hj'
      obtain ⟨s', seen', e1, e2, e3⟩ := markLoop_steps L (lbl := n + 1) (by omega) (by omega) d.size s [i] [i] hinit
        (by simp)
      have e1' : F.markCC d.size s i (n + 1) = some (s', 0) := by simp [markCC, e1]
      have hlbl : ((n + 1 : Nat) : Int) ≠ 0 := by omega
      have hval : ∀ j, F.getC s' j = 0 → F.getC s j = 0 ∧ j ≠ i := by
        intro j hj
        have hv := e2.value j
        rw [hj] at hv
        split at hv
        · exact absurd hv.symm hlbl
        · rename_i hns
          refine ⟨hv.symm, ?_⟩
          rintro rfl
          exact hns ⟨e2.mem_start, by simp⟩
      have hpos' : 0 < d.size := by
        rw [← Dims.length_all]
        exact List.length_pos_of_mem (Dims.mem_all.mpr hin)
      have hlt : (F.open_ d s').card < (F.open_ d s).card := by
        refine Finset.card_lt_card ⟨fun j hj => ?_, fun hsub => ?_⟩
        · simp only [open_, Finset.mem_filter] at hj ⊢
          exact ⟨hj.1, (hval j hj.2).1⟩
        · have := hsub hmem
          simp only [open_, Finset.mem_filter] at this
          exact (hval i this.2).2 rfl
      have hrec := ih s' (n + 1) (fun j hj => hl j (List.mem_cons_of_mem _ hj)) e2.ok' (by omega)
        (fun j hj => by
          obtain ⟨a, b⟩ := hval j hj
          rcases List.mem_cons.mp (hz j a) with h | h
          · exact absurd h b
          · exact h)
      have hne : ¬ ((0 : Int) + 0 = (d.size : Int)) := by omega
      simp only [sweepSteps, h0, if_true, hmod, e1', hne, if_false]
      have : (0 : Int) + 0 = 0 := rfl
      rw [this, hrec]
      exact e3
    · simp only [sweepSteps, h0, if_false]
      refine ih s n (fun j hj => hl j (List.mem_cons_of_mem _ hj)) hok hn fun j hj => ?_
      rcases List.mem_cons.mp (hz j hj) with h | h
      · subst h; exact absurd hj h0
      · exact h

/-- The flood fills take one iteration per cell that takes part. -/
theorem steps_eq (L : F.Lawful d ok elig adj) (hsz : d.size < u32) (s : σ) (hok : ok s) [DecidablePred elig] :
    F.steps d s = (d.all.filter fun i => elig i).length := by
  obtain ⟨h1, h2⟩ := reset_spec L s hok
  have hset : F.open_ d (F.reset d s) = (d.all.filter fun i => elig i).toFinset := by
    ext i
    simp only [open_, Finset.mem_filter, List.mem_toFinset, List.mem_filter, decide_eq_true_eq]
    refine and_congr_right fun _ => ⟨fun h => ?_, h2 i⟩
    by_contra hne
    have := L.get_inelig _ i h1 hne
    omega
  have hcard : (F.open_ d (F.reset d s)).card = (d.all.filter fun i => elig i).length := by
    rw [hset, List.toFinset_card_of_nodup ((Dims.nodup_all d).filter _)]
  rw [← hcard]
  refine sweep_steps L hsz d.all _ 0 (fun i hi => Dims.mem_all.mp hi) h1 ?_ fun i hi => ?_
  · rw [hcard, Nat.zero_add, ← Dims.length_all]
    exact List.length_filter_le _ _
  · have he : elig i := by
      by_contra hne
      have := L.get_inelig _ i h1 hne
      omega
    exact Dims.mem_all.mpr (L.elig_inB i he)

end CompFns

/-- C141, components.  Labelling the components of a collision map takes one iteration of the flood fill per cell (each
looks at six neighbours), whatever the components are; a second call takes none. -/
theorem C141_components {m : CMap} (h : m.grid.WF) (hsz : m.dims.nx * m.dims.ny * m.dims.nz < 2 ^ 32) :
    (m.valid = false → m.updateSteps = m.dims.nx * m.dims.ny * m.dims.nz) ∧
      ∀ m' n, m.updateCC = some (m', n) → m'.updateSteps = 0 := by
  have hs : m.dims.size = m.dims.nx * m.dims.ny * m.dims.nz := by unfold Dims.size; ring
  constructor
  · intro hv
    unfold CMap.updateSteps
    rw [hv]
    simp only [Bool.false_eq_true, if_false]
    have hm : ({ m with valid := false } : CMap) = m := by cases m; simp_all
    rw [hm]
    have := CompFns.steps_eq (CMap.lawful m) (by unfold u32; exact hs ▸ hsz) m (CMap.SameOcc.refl h)
    rw [← hs, ← Dims.length_all]
    refine this.trans ?_
    congr 1
    refine List.filter_eq_self.mpr ?_
    intro i hi
    simpa using Dims.mem_all.mp hi
  · intro m' n hu
    unfold CMap.updateCC at hu
    unfold CMap.updateSteps
    split at hu
    · rename_i hv
      simp only [Option.some.injEq, Prod.mk.injEq] at hu
      rw [← hu.1, if_pos hv]
    · split at hu
      · simp at hu
      · simp only [Option.some.injEq, Prod.mk.injEq] at hu
        rw [← hu.1, if_pos rfl]

/-- A source in the corner of a 4×3×2 grid: every cell is taken from the queue once or more. -/
example : SmallGrid ⟨4, 3, 2⟩ ∧ InBounds ⟨4, 3, 2⟩ ⟨0, 0, 0⟩ ∧
    (DField.cost ⟨4, 3, 2⟩ [⟨0, 0, 0⟩]).any (fun c => decide (24 ≤ c.1)) = true :=
  ⟨by unfold SmallGrid; decide, by norm_num [InBounds], by decide +kernel⟩

/-- Three obstacles on the diagonal of a 3×3×1 grid: the hypotheses of `C141_extraction` hold. -/
example : SmallGrid ⟨3, 3, 1⟩ ∧ Answers ⟨3, 3, 1⟩ (fun i => some (decide (i.x = i.y))) (fun i => decide (i.x = i.y)) ∧
    (SdfGen.cost ⟨3, 3, 1⟩ fun i => some (decide (i.x = i.y))).any (fun c => decide (18 ≤ c.1)) = true :=
  ⟨by unfold SmallGrid; decide, fun _ _ => rfl, by decide +kernel⟩

/-- A new map of 3×2×2 cells. -/
example : (CMap.create ⟨3, 2, 2⟩ ⟨0, 0⟩ ⟨0, 0⟩).grid.WF ∧ (CMap.create ⟨3, 2, 2⟩ ⟨0, 0⟩ ⟨0, 0⟩).valid = false ∧
    (CMap.create ⟨3, 2, 2⟩ ⟨0, 0⟩ ⟨0, 0⟩).updateSteps = 12 :=
  ⟨Grid.wf_mk' _ _ _, rfl, by decide +kernel⟩

end Verif
