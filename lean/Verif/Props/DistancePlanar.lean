import Verif.Props.DistanceField
import Mathlib.Tactic.LinearCombination

/-!
# The distance transform on flat grids (C10, part on grids one cell thick)

The propagation may shorten the distance of a cell after that cell's bucket has passed; such a value is
never handed on to the neighbours.  On a grid that is one cell thick along some axis this cannot happen.
-/

namespace Verif

open Spec

namespace DField

variable {d : Dims} {S : List Idx}

/-! ## What one bucket does -/

/-- In bucket `b` of state `s0` there is an entry for source `c` that is allowed to move to `v`, and the
distance of `v` to `c` was an improvement. -/
def Src (s0 : St) (b : Nat) (v c : Idx) : Prop :=
  ∃ e ∈ s0.bucket b, e.cp = c ∧ ∃ δ' ∈ dirs27, e.dir = dirNum δ' ∧ ∃ δ ∈ nbhd b δ',
    v = e.loc + δ ∧ d.inB v = true ∧ ¬ ValLE s0 v (dsq v c)

theorem relax_new {b : Nat} {s : St} (h : Inv d S (b + 1) s)
    (hS : ∀ p ∈ S, d.inB p = true) {e : BCell} (he : EntryOK d S b e) {δ : Idx} :
    (∀ n e', e' ∈ (relax b e s δ).bucket n → e' ∈ s.bucket n ∨
      (e'.loc = e.loc + δ ∧ d.inB e'.loc = true ∧ e'.cp = e.cp ∧ n = dsq e'.loc e'.cp ∧
        ¬ ValLE s e'.loc n ∧ ValLE (relax b e s δ) e'.loc n)) ∧
    (∀ v, (relax b e s δ).field.get v = s.field.get v ∨
      (v = e.loc + δ ∧ d.inB v = true ∧ ((relax b e s δ).field.get v).dist = some (dsq v e.cp) ∧
        ((relax b e s δ).field.get v).cp = e.cp ∧ ¬ ValLE s v (dsq v e.cp))) ∧
    (∀ n e', e' ∈ s.bucket n → e' ∈ (relax b e s δ).bucket n) := by
  obtain ⟨he1, he2, he3, -⟩ := he
  unfold relax
  rw [h.dims]
  by_cases hin : d.inB (e.loc + δ) = true
  · have hmax : ¬ maxSq d < dsq (e.loc + δ) e.cp := Nat.not_lt.mpr (dsq_le_maxSq hin (hS _ he2))
    simp only [hin, if_true, hmax, if_false]
    by_cases hbet : better (dsq (e.loc + δ) e.cp) (s.field.get (e.loc + δ)).dist = true
    · simp only [hbet, if_true]
      have hnot : ¬ ValLE s (e.loc + δ) (dsq (e.loc + δ) e.cp) := by
        rintro ⟨n, hn, hle⟩
        rw [hn] at hbet
        simp only [better, decide_eq_true_eq] at hbet
        omega
      have hlt : dsq (e.loc + δ) e.cp < s.q.length := by rw [h.qlen]; omega
      have hin' : s.field.dims.inB (e.loc + δ) = true := by rw [h.dims]; exact hin
      have hget : ∀ v, (s.field.set (e.loc + δ) ⟨some (dsq (e.loc + δ) e.cp), dirNum δ, e.loc + δ, e.cp⟩).get v
          = if e.loc + δ = v then ⟨some (dsq (e.loc + δ) e.cp), dirNum δ, e.loc + δ, e.cp⟩
            else s.field.get v := by
        intro v
        rw [Grid.get_set h.wf]
        simp [hin']
      refine ⟨?_, ?_, ?_⟩
      · intro n e' he'
        simp only [St.bucket, bucket_modify _ _ _ _ hlt] at he'
        split at he'
        · rename_i hn
          rcases List.mem_append.mp he' with h1 | h1
          · exact Or.inl h1
          · simp only [List.mem_singleton] at h1
            subst h1 hn
            exact Or.inr ⟨rfl, hin, rfl, rfl, hnot,
              dsq (e.loc + δ) e.cp, by simp only [hget, if_true], Nat.le_refl _⟩
        · exact Or.inl he'
      · intro v
        by_cases hv : e.loc + δ = v
        · subst hv
          refine Or.inr ⟨rfl, hin, ?_, ?_, hnot⟩ <;> simp only [hget, if_true]
        · left; simp only [hget, hv, if_false]
      · intro n e' he'
        simp only [St.bucket, bucket_modify _ _ _ _ hlt]
        split
        · exact List.mem_append_left _ he'
        · exact he'
    · simp only [hbet]
      exact ⟨fun n e' he' => Or.inl he', fun v => Or.inl rfl, fun n e' he' => he'⟩
  · simp only [hin]
    exact ⟨fun n e' he' => Or.inl he', fun v => Or.inl rfl, fun n e' he' => he'⟩

/-- What is known in the middle of a bucket that started in state `s0`. -/
structure Mid (d : Dims) (S : List Idx) (s0 : St) (b : Nat) (s : St) : Prop where
  inv : Inv d S (b + 1) s
  mono : Mono s0 s
  newE : ∀ n e, e ∈ s.bucket n → e ∈ s0.bucket n ∨
    (n = dsq e.loc e.cp ∧ Src (d := d) s0 b e.loc e.cp ∧ ValLE s e.loc n)
  newV : ∀ v, s.field.get v = s0.field.get v ∨
    ((s.field.get v).dist = some (dsq v (s.field.get v).cp) ∧ Src (d := d) s0 b v (s.field.get v).cp)
  keep : ∀ n e, e ∈ s0.bucket n → e ∈ s.bucket n

theorem Mid.relax (hd : maxSq d < 2 ^ 31) {b : Nat} {s0 s : St} (h : Mid d S s0 b s)
    (hS : ∀ p ∈ S, d.inB p = true) {e : BCell} (he : EntryOK d S b e) (hmem : e ∈ s0.bucket b)
    {δ' : Idx} (hδ' : δ' ∈ dirs27) (hdir : e.dir = dirNum δ') {δ : Idx} (hδ : δ ∈ nbhd b δ') :
    Mid d S s0 b (DField.relax b e s δ) := by
  obtain ⟨r1, r2, r3⟩ := relax_new h.inv hS he (δ := δ)
  obtain ⟨g1, g2, _⟩ := relax_spec hd h.inv hS he hδ
  refine ⟨g1, h.mono.trans g2, ?_, ?_, fun n e' he' => r3 n e' (h.keep n e' he')⟩
  · intro n e' he'
    rcases r1 n e' he' with h1 | ⟨h1, h2, h3, h4, h5, h6⟩
    · rcases h.newE n e' h1 with h7 | ⟨h7, h8, h9⟩
      · exact Or.inl h7
      · exact Or.inr ⟨h7, h8, g2 _ _ h9⟩
    · refine Or.inr ⟨h4, ⟨e, hmem, h3.symm, δ', hδ', hdir, δ, hδ, h1, h2, ?_⟩, h6⟩
      intro hc
      rw [← h4] at hc
      exact h5 (h.mono _ _ hc)
  · intro v
    rcases r2 v with h1 | ⟨h1, h2, h3, h4, h5⟩
    · rw [h1]; exact h.newV v
    · rw [h4]
      exact Or.inr ⟨h3, e, hmem, rfl, δ', hδ', hdir, δ, hδ, h1, h2, fun hc => h5 (h.mono _ _ hc)⟩

theorem processCell_eq (hd : maxSq d < 2 ^ 31) {b : Nat} (hb : b ≤ maxSq d) {e : BCell} {s : St}
    {δ' : Idx} (hδ' : δ' ∈ dirs27) (hdir : e.dir = dirNum δ') :
    processCell b s e = (nbhd b δ').foldl (DField.relax b e) s := by
  have hi32 : i32 b = true := by
    unfold i32; simp only [Bool.and_eq_true, decide_eq_true_eq]; omega
  have hs : ({ s with ub := s.ub || !i32 b } : St) = s := by
    rw [hi32]; simp
  have hr := dirNum_range δ' hδ'
  have hnr : ¬ (e.dir < 0 ∨ e.dir > 26) := by rw [hdir]; omega
  have hD : (if b > 1 then 1 else b) ∈ [0, 1] := by
    simp only [List.mem_cons, List.not_mem_nil, or_false]; split <;> omega
  have ht := neighborhoods_dirNum δ' hδ' _ hD
  unfold processCell
  simp only [hs, hnr, if_false]
  rw [hdir, ht]
  rfl

theorem mid_bucket (hd : maxSq d < 2 ^ 31) {b : Nat} (hb : b ≤ maxSq d)
    (hS : ∀ p ∈ S, d.inB p = true) {s0 : St} (h : Inv d S b s0) :
    Mid d S s0 b ((s0.bucket b).foldl (processCell b) s0) := by
  have hrel : ∀ (e : BCell) (δ' : Idx), e ∈ s0.bucket b → δ' ∈ dirs27 → e.dir = dirNum δ' →
      ∀ l : List Idx, (∀ δ ∈ l, δ ∈ nbhd b δ') → ∀ s, Mid d S s0 b s →
        Mid d S s0 b (l.foldl (DField.relax b e) s) := by
    intro e δ' he hδ' hdir l
    induction l with
    | nil => intro _ s hs; exact hs
    | cons a l ih =>
      intro hl s hs
      exact ih (fun δ hδ => hl δ (List.mem_cons_of_mem _ hδ)) _
        (hs.relax hd hS (h.entry b e he) he hδ' hdir (hl a (List.mem_cons_self ..)))
  have hcell : ∀ l : List BCell, (∀ e ∈ l, e ∈ s0.bucket b) → ∀ s, Mid d S s0 b s →
      Mid d S s0 b (l.foldl (processCell b) s) := by
    intro l
    induction l with
    | nil => intro _ s hs; exact hs
    | cons a l ih =>
      intro hl s hs
      refine ih (fun e he => hl e (List.mem_cons_of_mem _ he)) _ ?_
      have ha := hl a (List.mem_cons_self ..)
      obtain ⟨δ', hδ', hdir, _⟩ := h.fwd b a (Nat.le_refl _) ha
      rw [processCell_eq hd hb hδ' hdir]
      exact hrel a δ' ha hδ' hdir _ (fun _ h => h) s hs
  exact hcell _ (fun _ h => h) s0 ⟨h.weaken (Nat.le_succ _), Mono.refl _,
    fun _ _ he => Or.inl he, fun _ => Or.inl rfl, fun _ _ he => he⟩

/-! ## History of a whole run -/

/-- An entry for source `c` at cell `u` is in its bucket when that bucket starts. -/
def Ent (s0 : St) (u c : Idx) : Prop :=
  ∃ e ∈ (after s0 (dsq u c)).bucket (dsq u c), e.loc = u ∧ e.cp = c

/-- After `t` buckets the value of cell `v` is its distance to `c`. -/
def Val (s0 : St) (t : Nat) (v c : Idx) : Prop :=
  ((after s0 t).field.get v).dist = some (dsq v c) ∧ ((after s0 t).field.get v).cp = c

/-- Facts about a run from an initial state `s0`. -/
structure Start (d : Dims) (S : List Idx) (s0 : St) : Prop where
  small : maxSq d < 2 ^ 31
  pts : ∀ p ∈ S, d.inB p = true
  inv : Inv d S 0 s0
  only0 : ∀ b, b ≠ 0 → s0.bucket b = []

variable {s0 : St}

theorem Start.mono (h : Start d S s0) {t t' : Nat} (ht : t ≤ t') (hm : t' ≤ maxSq d + 1) {v : Idx}
    {k k' : Nat} (hk : k ≤ k') (hv : ValLE (after s0 t) v k) : ValLE (after s0 t') v k' := by
  have := after_mono h.small h.pts h.inv t (t' - t) (by omega)
  rw [show t + (t' - t) = t' by omega] at this
  obtain ⟨n, hn, hle⟩ := this v k hv
  exact ⟨n, hn, by omega⟩

theorem Start.keep (h : Start d S s0) {t : Nat} {b : Nat} {e : BCell} :
    ∀ k, t + k ≤ b → b ≤ maxSq d → e ∈ (after s0 t).bucket b → e ∈ (after s0 (t + k)).bucket b := by
  intro k
  induction k with
  | zero => intro _ _ he; exact he
  | succ k ih =>
    intro hk hb he
    have h1 := ih (by omega) hb he
    rw [show t + (k + 1) = (t + k) + 1 by omega, after_succ]
    have hm := mid_bucket h.small (b := t + k) (by omega) h.pts
      (after_inv h.small h.pts h.inv (t + k) (by omega))
    have := hm.keep b e h1
    simp only [processBucket, St.bucket, bucket_set_nil]
    rw [if_neg (by omega)]
    exact this

/-- Every entry has a cell value at most its bucket number, and one outside bucket 0 was put there by an
entry of an earlier bucket. -/
theorem Start.history (h : Start d S s0) : ∀ t, t ≤ maxSq d + 1 → ∀ n e, e ∈ (after s0 t).bucket n →
    (1 ≤ n → ∃ b', b' < t ∧ Src (d := d) (after s0 b') b' e.loc e.cp) ∧
    (1 ≤ n → ValLE (after s0 t) e.loc n) := by
  intro t
  induction t with
  | zero =>
    intro _ n e he
    refine ⟨fun hn => ?_, fun hn => ?_⟩ <;>
    · rw [show after s0 0 = s0 by simp [after], h.only0 n (by omega)] at he
      simp at he
  | succ t ih =>
    intro ht n e he
    have hm := mid_bucket h.small (b := t) (by omega) h.pts
      (after_inv h.small h.pts h.inv t (by omega))
    have hst := h.mono (t := t) (t' := t + 1) (by omega) ht (v := e.loc) (Nat.le_refl n)
    rw [after_succ] at he hst ⊢
    simp only [processBucket, St.bucket, bucket_set_nil] at he
    split at he
    · simp at he
    · rcases hm.newE n e he with h1 | ⟨h1, h2, h3⟩
      · obtain ⟨i1, i2⟩ := ih (by omega) n e h1
        exact ⟨fun hn => (i1 hn).imp fun b' hb => ⟨by omega, hb.2⟩, fun hn => hst (i2 hn)⟩
      · exact ⟨fun _ => ⟨t, by omega, h2⟩, fun _ => h3⟩

/-- A value that appears in bucket `t` was caused by an entry of that bucket. -/
theorem Start.changed (h : Start d S s0) {t : Nat} (ht : t ≤ maxSq d) {v c : Idx}
    (hv : Val s0 (t + 1) v c) : Val s0 t v c ∨ Src (d := d) (after s0 t) t v c := by
  have hm := mid_bucket h.small (b := t) ht h.pts (after_inv h.small h.pts h.inv t (by omega))
  unfold Val at *
  rw [after_succ] at hv
  rcases hm.newV v with h1 | ⟨h1, h2⟩
  · left
    rw [← h1]
    exact hv
  · right
    have : (((after s0 t).bucket t).foldl (processCell t) (after s0 t)).field.get v =
      (processBucket (after s0 t) t).field.get v := rfl
    rw [this, hv.2] at h2
    exact h2

theorem Ent.mem (h : Start d S s0) {u c : Idx} (hu : dsq u c ≤ maxSq d) (he : Ent s0 u c) :
    d.inB u = true ∧ c ∈ S := by
  obtain ⟨e, he, rfl, rfl⟩ := he
  obtain ⟨a, b, _⟩ := (after_inv h.small h.pts h.inv _ (by omega)).entry _ e he
  exact ⟨a, b⟩

/-- A value is a distance to a source. -/
theorem Start.val_of_le (h : Start d S s0) {t : Nat} (ht : t ≤ maxSq d + 1) {v : Idx}
    (hin : d.inB v = true) {k : Nat} (hv : ValLE (after s0 t) v k) :
    ∃ c ∈ S, Val s0 t v c ∧ dsq v c ≤ k := by
  obtain ⟨n, hn, hle⟩ := hv
  obtain ⟨h1, h2, h3⟩ := (after_inv h.small h.pts h.inv t ht).sound v n hin hn
  refine ⟨_, h2, ⟨?_, rfl⟩, by omega⟩
  rw [hn, h3]

theorem Val.le {t k : Nat} {v c : Idx} (hv : Val s0 t v c) (hk : ValLE (after s0 t) v k) :
    dsq v c ≤ k := by
  obtain ⟨n, hn, hle⟩ := hk
  rw [hv.1] at hn
  simp only [Option.some.injEq] at hn
  omega

theorem Val.valLE {t : Nat} {v c : Idx} (hv : Val s0 t v c) : ValLE (after s0 t) v (dsq v c) :=
  ⟨_, hv.1, Nat.le_refl _⟩

/-- A value that has not been overtaken is still in the queue. -/
theorem Val.ent (h : Start d S s0) {t : Nat} {v c : Idx} (hin : d.inB v = true)
    (ht : t ≤ dsq v c) (hm : dsq v c ≤ maxSq d) (hv : Val s0 t v c) : Ent s0 v c := by
  have hinv := after_inv h.small h.pts h.inv t (by omega)
  have hp := hinv.pend v _ hin hv.1 ht
  have := h.keep (dsq v c - t) (by omega) hm hp
  rw [show t + (dsq v c - t) = dsq v c by omega] at this
  exact ⟨_, this, (hinv.sound v _ hin hv.1).1, hv.2⟩

/-- A face move away from the source is allowed for every queued entry. -/
theorem Start.forward (h : Start d S s0) {u v c : Idx} (hu : dsq u c ≤ maxSq d) (he : Ent s0 u c)
    (hv : d.inB v = true) (hadj : FaceAdj u v) (hlt : dsq u c < dsq v c) :
    ValLE (after s0 (dsq u c + 1)) v (dsq v c) := by
  have hinv := after_inv h.small h.pts h.inv (dsq u c) (by omega)
  obtain ⟨e, hmem, rfl, rfl⟩ := he
  obtain ⟨δ', hδ', hdir, haway⟩ := hinv.fwd _ _ (Nat.le_refl _) hmem
  obtain ⟨δ, hδ, hface, rfl⟩ := face_move hadj
  have hadd := dsq_add e.loc δ e.cp
  have hn : δ ∈ nbhd (dsq e.loc e.cp) δ' := by
    rcases Nat.eq_zero_or_pos (dsq e.loc e.cp) with hz | hpos
    · rw [hz, mem_nbhd_zero]
      refine ⟨hδ, ?_⟩
      rintro rfl
      simp at hface
    · rw [mem_nbhd_pos hpos]
      refine ⟨hδ, hface, ?_⟩
      unfold Away at haway
      simp only [Idx.sub_x, Idx.sub_y, Idx.sub_z] at haway
      obtain ⟨a1, a2, a3⟩ := haway
      have key : ∀ (a w : Int), (a ≠ 0 → 0 < a * w) → (0 ≤ w → 0 ≤ a * 1) ∧ (w ≤ 0 → 0 ≤ a * -1) := by
        intro a w ha
        by_cases hz : a = 0
        · subst hz; simp
        · have := ha hz
          constructor
          · intro hw
            by_contra hcon
            have : a * w ≤ 0 := mul_nonpos_of_nonpos_of_nonneg (by linarith) hw
            linarith
          · intro hw
            by_contra hcon
            have : a * w ≤ 0 := mul_nonpos_of_nonneg_of_nonpos (by linarith) hw
            linarith
      have k1 := key _ _ a1
      have k2 := key _ _ a2
      have k3 := key _ _ a3
      rcases face_cases hface with rfl | rfl | rfl | rfl | rfl | rfl <;>
        simp only [mul_zero, le_refl, and_true, true_and] <;> simp at hadd
      · exact k1.1 (by omega)
      · exact k1.2 (by omega)
      · exact k2.1 (by omega)
      · exact k2.2 (by omega)
      · exact k3.1 (by omega)
      · exact k3.2 (by omega)
  have := (processBucket_spec h.small (b := dsq e.loc e.cp) hu h.pts hinv).2.2 e hmem δ' hdir haway
    hδ' δ hn hv
  rw [after_succ]
  exact this

theorem Start.src_cases (h : Start d S s0) {t : Nat} (ht : t ≤ maxSq d) {v c : Idx}
    (hs : Src (d := d) (after s0 t) t v c) :
    ∃ w, Ent s0 w c ∧ dsq w c = t ∧ d.inB v = true ∧ ¬ ValLE (after s0 t) v (dsq v c) ∧
      ((w = c ∧ Close v c) ∨ (w ≠ c ∧ FaceAdj w v)) := by
  obtain ⟨e, he, rfl, δ', hδ', hdir, δ, hδ, rfl, hin, hnot⟩ := hs
  have hinv := after_inv h.small h.pts h.inv t (by omega)
  obtain ⟨_, _, h3, _⟩ := hinv.entry t e he
  refine ⟨e.loc, ⟨e, by rw [h3]; exact he, rfl, rfl⟩, h3, hin, hnot, ?_⟩
  rcases Nat.eq_zero_or_pos t with hz | hpos
  · left
    subst hz
    have hec : e.loc = e.cp := dsq_eq_zero.mp h3
    refine ⟨hec, ?_⟩
    obtain ⟨hδ, _⟩ := mem_nbhd_zero.mp hδ
    rw [mem_dirs27] at hδ
    rw [hec]
    unfold Close
    simp only [Idx.add_x, Idx.add_y, Idx.add_z, abs_le]
    omega
  · right
    refine ⟨fun hc => by rw [hc, dsq_eq_zero.mpr rfl] at h3; omega, ?_⟩
    obtain ⟨_, hf, _⟩ := (mem_nbhd_pos hpos).mp hδ
    unfold FaceAdj
    simp only [Idx.add_x, Idx.add_y, Idx.add_z, Int.abs_eq_natAbs]
    omega

/-- Where a queued entry comes from. -/
theorem Start.parent (h : Start d S s0) {w c : Idx} (hw : dsq w c ≤ maxSq d) (he : Ent s0 w c)
    (hne : w ≠ c) : ∃ w', Ent s0 w' c ∧ dsq w' c < dsq w c ∧
      ¬ ValLE (after s0 (dsq w' c)) w (dsq w c) ∧
      ((w' = c ∧ Close w c) ∨ (w' ≠ c ∧ FaceAdj w' w)) := by
  obtain ⟨e, hmem, rfl, rfl⟩ := he
  have hpos : 1 ≤ dsq e.loc e.cp := by
    rcases Nat.eq_zero_or_pos (dsq e.loc e.cp) with h | h
    · exact absurd (dsq_eq_zero.mp h) hne
    · exact h
  obtain ⟨b', hb', hs⟩ := (h.history _ (by omega) _ e hmem).1 hpos
  obtain ⟨w', h1, h2, _, h4, h5⟩ := h.src_cases (by omega) hs
  exact ⟨w', h1, by omega, by rw [h2]; exact h4, h5⟩

/-- The value of a queued cell is at most its bucket number. -/
theorem Start.ent_value (h : Start d S s0) {u c : Idx} (hu : dsq u c ≤ maxSq d) (he : Ent s0 u c) :
    ValLE (after s0 (dsq u c)) u (dsq u c) := by
  rcases Nat.eq_zero_or_pos (dsq u c) with hz | hpos
  · obtain ⟨_, hc⟩ := he.mem h hu
    have huc := dsq_eq_zero.mp hz
    rw [hz, huc]
    exact ⟨0, by simpa [after] using h.inv.src c hc, Nat.le_refl _⟩
  · obtain ⟨e, hmem, rfl, rfl⟩ := he
    exact (h.history _ (by omega) _ e hmem).2 hpos

/-- No entry of bucket `b` improves a cell that lies nearer to its source. -/
def Settled (d : Dims) (s0 : St) (b : Nat) : Prop :=
  ∀ w c x, Ent s0 w c → dsq w c = b → d.inB x = true → FaceAdj w x → dsq x c < b →
    ValLE (after s0 b) x (dsq x c)

theorem dsq_face_ne {u v : Idx} (c : Idx) (h : FaceAdj u v) : dsq v c ≠ dsq u c := by
  obtain ⟨δ, _, hf, rfl⟩ := face_move h
  have := dsq_add u δ c
  rcases face_cases hf with rfl | rfl | rfl | rfl | rfl | rfl <;> simp at this <;> omega

theorem Start.settled_val (h : Start d S s0) : ∀ t, t ≤ maxSq d + 1 → (∀ b, b < t → Settled d s0 b) →
    ∀ v c, d.inB v = true → Val s0 t v c → dsq v c < t → Val s0 (dsq v c) v c ∧ Ent s0 v c := by
  intro t
  induction t with
  | zero => intro _ _ v c _ _ hlt; omega
  | succ t ih =>
    intro ht hset v c hin hv hlt
    rcases h.changed (by omega) hv with h1 | h1
    · rcases Nat.lt_or_ge (dsq v c) t with h2 | h2
      · exact ih (by omega) (fun b hb => hset b (by omega)) v c hin h1 h2
      · have : dsq v c = t := by omega
        exact ⟨by rw [this]; exact h1, h1.ent h hin h2 (by omega)⟩
    · exfalso
      obtain ⟨w, e1, e2, _, e4, e5⟩ := h.src_cases (by omega) h1
      rcases e5 with ⟨rfl, _⟩ | ⟨hne, hadj⟩
      · have ht0 : t = 0 := by rw [← e2]; exact dsq_eq_zero.mpr rfl
        have hvw : v = w := dsq_eq_zero.mp (by omega)
        obtain ⟨_, hc⟩ := e1.mem h (by omega)
        apply e4
        rw [ht0, hvw]
        exact ⟨0, by simpa [after] using h.inv.src w hc, Nat.zero_le _⟩
      · have := dsq_face_ne c hadj
        exact e4 (hset t (by omega) w c v e1 e2 hin hadj (by omega))

theorem Start.neighbour (h : Start d S s0) {u v c : Idx} (hu : dsq u c ≤ maxSq d) (he : Ent s0 u c)
    (hset : Settled d s0 (dsq u c)) (hv : d.inB v = true) (hadj : FaceAdj u v) :
    ValLE (after s0 (dsq u c + 1)) v (dsq v c) := by
  have hne := dsq_face_ne c hadj
  rcases Nat.lt_or_ge (dsq u c) (dsq v c) with h1 | h1
  · exact h.forward hu he hv hadj h1
  · exact h.mono (Nat.le_succ _) (by omega) (Nat.le_refl _)
      (hset u c v he rfl hv hadj (by omega))

/-! ## Flat grids -/

/-- Two coordinates that describe the cells of a flat grid. -/
structure Chart (d : Dims) where
  P : Idx → Int
  Q : Idx → Int
  cell : Int → Int → Idx
  P_cell : ∀ a b, P (cell a b) = a
  Q_cell : ∀ a b, Q (cell a b) = b
  cell_PQ : ∀ v, d.inB v = true → cell (P v) (Q v) = v
  loP : Int
  hiP : Int
  loQ : Int
  hiQ : Int
  inB : ∀ a b, d.inB (cell a b) = true ↔ (loP ≤ a ∧ a ≤ hiP) ∧ (loQ ≤ b ∧ b ≤ hiQ)
  dsq : ∀ u v, d.inB u = true → d.inB v = true → (dsq u v : Int) = (P u - P v) ^ 2 + (Q u - Q v) ^ 2
  face : ∀ u v, d.inB u = true → d.inB v = true →
    (FaceAdj u v ↔ |P u - P v| + |Q u - Q v| = 1)
  close : ∀ u v, d.inB u = true → d.inB v = true →
    (Close u v ↔ |P u - P v| ≤ 1 ∧ |Q u - Q v| ≤ 1)

namespace Chart

variable (K : Chart d)

theorem inB' {v : Idx} (h : d.inB v = true) :
    (K.loP ≤ K.P v ∧ K.P v ≤ K.hiP) ∧ (K.loQ ≤ K.Q v ∧ K.Q v ≤ K.hiQ) := by
  rw [← K.inB, K.cell_PQ v h]; exact h

theorem ext {u v : Idx} (hu : d.inB u = true) (hv : d.inB v = true) (hP : K.P u = K.P v)
    (hQ : K.Q u = K.Q v) : u = v := by
  rw [← K.cell_PQ u hu, ← K.cell_PQ v hv, hP, hQ]

/-- Exchange of the coordinates. -/
def swap : Chart d where
  P := K.Q
  Q := K.P
  cell a b := K.cell b a
  P_cell a b := K.Q_cell b a
  Q_cell a b := K.P_cell b a
  cell_PQ := K.cell_PQ
  loP := K.loQ
  hiP := K.hiQ
  loQ := K.loP
  hiQ := K.hiP
  inB a b := by rw [K.inB]; tauto
  dsq u v hu hv := by rw [K.dsq u v hu hv]; ring
  face u v hu hv := by rw [K.face u v hu hv, add_comm]
  close u v hu hv := by rw [K.close u v hu hv, and_comm]

/-- Reversal of the first coordinate. -/
def flip : Chart d where
  P v := - K.P v
  Q := K.Q
  cell a b := K.cell (-a) b
  P_cell a b := by rw [K.P_cell]; ring
  Q_cell a b := K.Q_cell _ b
  cell_PQ v hv := by rw [neg_neg]; exact K.cell_PQ v hv
  loP := - K.hiP
  hiP := - K.loP
  loQ := K.loQ
  hiQ := K.hiQ
  inB a b := by rw [K.inB]; omega
  dsq u v hu hv := by rw [K.dsq u v hu hv]; ring
  face u v hu hv := by
    rw [K.face u v hu hv, show - K.P u - - K.P v = -(K.P u - K.P v) by ring, abs_neg]
  close u v hu hv := by
    rw [K.close u v hu hv, show - K.P u - - K.P v = -(K.P u - K.P v) by ring, abs_neg]

theorem sq_step (a c : Int) : (a - 1 - c) ^ 2 = (a - c) ^ 2 - 2 * (a - c) + 1 := by ring

theorem sq_far {a c s : Int} (h : s < c) (h' : c ≤ a) : (a - c) ^ 2 < (a - s) ^ 2 := by nlinarith

theorem sq_back {a c s : Int} (h : s ≤ c) (h' : c ≤ a) : (a - c) ^ 2 ≤ (a - s) ^ 2 := by nlinarith

/-- One step to the left: if a source further left than `c` holds `y`, one holds its left neighbour. -/
theorem left (h : Start d S s0) {b : Nat} (hb : b ≤ maxSq d + 1) (hset : ∀ b', b' < b → Settled d s0 b')
    {c y s y2 : Idx} (hc : d.inB c = true) (hy : d.inB y = true) (hy2 : d.inB y2 = true)
    (hP : K.P y2 = K.P y - 1) (hQ : K.Q y2 = K.Q y) (he : Ent s0 y s) (hv : Val s0 (Verif.dsq y s) y s)
    (hle : Verif.dsq y s ≤ Verif.dsq y c) (hlt : Verif.dsq y s < b) (hs : K.P s < K.P c)
    (hcy : K.P c ≤ K.P y2) :
    ∃ s2, Ent s0 y2 s2 ∧ Val s0 (Verif.dsq y2 s2) y2 s2 ∧ Verif.dsq y2 s2 < Verif.dsq y2 c ∧
      K.P s2 < K.P c := by
  have hsS := (he.mem h (by omega)).2
  have hsB := h.pts s hsS
  have d1 := K.dsq y s hy hsB
  have d2 := K.dsq y c hy hc
  have d3 := K.dsq y2 s hy2 hsB
  have d4 := K.dsq y2 c hy2 hc
  rw [hP, hQ] at d3 d4
  have hadj : FaceAdj y y2 := by
    rw [K.face y y2 hy hy2, hP, hQ]; simp
  have hlt1 : Verif.dsq y2 s < Verif.dsq y s := by
    zify; rw [d1, d3]; nlinarith
  have hlt2 : Verif.dsq y2 s < Verif.dsq y2 c := by
    zify at hle ⊢; rw [d1, d2] at hle; rw [d3, d4]; nlinarith
  have hval := hset _ hlt y s y2 he rfl hy2 hadj hlt1
  obtain ⟨s2, hs2, hv2, hle2⟩ := h.val_of_le (by omega) hy2 hval
  obtain ⟨hv2', he2⟩ := h.settled_val _ (by omega) (fun b' hb' => hset b' (by omega)) y2 s2 hy2 hv2
    (by omega)
  refine ⟨s2, he2, hv2', by omega, ?_⟩
  have hs2B := h.pts s2 hs2
  have hn := h.neighbour (by omega) he2 (hset _ (by omega)) hy
    (by rw [K.face y2 y hy2 hy, hP, hQ]; simp)
  have hcur := hv.le (h.mono (by omega) (by omega) (Nat.le_refl _) hn)
  have d5 := K.dsq y s2 hy hs2B
  have d6 := K.dsq y2 s2 hy2 hs2B
  rw [hP, hQ] at d6
  zify at hcur hle2
  rw [d1, d5] at hcur
  rw [d3, d6] at hle2
  nlinarith

/-- Where an entry above and not left of its source comes from. -/
theorem parent (h : Start d S s0) {c w : Idx} (hc : d.inB c = true) (hw : d.inB w = true)
    (hwm : Verif.dsq w c ≤ maxSq d) (he : Ent s0 w c) (hQ : K.Q c < K.Q w) (hP : K.P c ≤ K.P w) :
    ∃ w', Ent s0 w' c ∧ d.inB w' = true ∧ Verif.dsq w' c < Verif.dsq w c ∧
      ¬ ValLE (after s0 (Verif.dsq w' c)) w (Verif.dsq w c) ∧
      ((w' = c ∧ Close w c) ∨ (w' ≠ c ∧ K.P w' = K.P w ∧ K.Q w' = K.Q w - 1) ∨
        (w' ≠ c ∧ K.P c < K.P w ∧ K.P w' = K.P w - 1 ∧ K.Q w' = K.Q w)) := by
  have hne : w ≠ c := by rintro rfl; omega
  obtain ⟨w', p1, p2, p3, p4⟩ := h.parent hwm he hne
  have hw' := (p1.mem h (by omega)).1
  refine ⟨w', p1, hw', p2, p3, ?_⟩
  rcases p4 with p4 | ⟨hne', hadj⟩
  · exact Or.inl p4
  · right
    have d3 := K.dsq w c hw hc
    have d5 := K.dsq w' c hw' hc
    rw [K.face w' w hw' hw] at hadj
    have hcases : (K.P w' = K.P w ∧ (K.Q w' = K.Q w - 1 ∨ K.Q w' = K.Q w + 1)) ∨
        (K.Q w' = K.Q w ∧ (K.P w' = K.P w - 1 ∨ K.P w' = K.P w + 1)) := by
      simp only [Int.abs_eq_natAbs] at hadj
      omega
    zify at p2
    rw [d3, d5] at p2
    rcases hcases with ⟨q1, q2 | q2⟩ | ⟨q1, q2 | q2⟩
    · exact Or.inl ⟨hne', q1, q2⟩
    · rw [q1, q2] at p2; nlinarith
    · refine Or.inr ⟨hne', ?_, q2, q1⟩
      rw [q1, q2] at p2; nlinarith
    · rw [q1, q2] at p2; nlinarith

/-- The situation that would make an entry improve a cell nearer to its source leads back, cell by cell,
along the row of that entry, to an entry that could not have been queued. -/
theorem descend (h : Start d S s0) {b : Nat} (hb : b ≤ maxSq d + 1) (hset : ∀ b', b' < b → Settled d s0 b')
    {c : Idx} (hc : d.inB c = true) : ∀ (m : Nat) (w y s : Idx), K.P w - K.P c = m → Ent s0 w c →
      Verif.dsq w c < b → d.inB w = true → d.inB y = true → K.Q c < K.Q w → K.P y = K.P w →
      K.Q y = K.Q w - 1 → Ent s0 y s → Val s0 (Verif.dsq y s) y s →
      Verif.dsq y s < Verif.dsq y c → K.P s < K.P c → False := by
  intro m
  induction m using Nat.strong_induction_on with
  | _ m ih =>
    intro w y s hm hew hwb hw hy hQ hPy hQy hey hvy hlt hs
    have d2 := K.dsq y c hy hc
    have d3 := K.dsq w c hw hc
    have hyw : Verif.dsq y c < Verif.dsq w c := by
      have := sq_step (K.Q w) (K.Q c)
      zify; rw [d2, d3, hPy, hQy]; omega
    have hsB := h.pts s (hey.mem h (by omega)).2
    have d1 := K.dsq y s hy hsB
    have d4 := K.dsq w s hw hsB
    have hlt' := hlt
    zify at hlt'
    rw [d1, d2, hPy] at hlt'
    have e1 : (K.P w - K.P c) ^ 2 < (K.P w - K.P s) ^ 2 := sq_far hs (by omega)
    have hr : K.Q c < K.Q y := by
      by_contra hcon
      have : K.Q y = K.Q c := by omega
      rw [this, sub_self] at hlt'
      have := sq_nonneg (K.Q c - K.Q s)
      omega
    have hQs : K.Q c < K.Q s := by
      by_contra hcon
      have e2 : (K.Q y - K.Q c) ^ 2 ≤ (K.Q y - K.Q s) ^ 2 := sq_back (by omega) (by omega)
      omega
    have hws : Verif.dsq w s ≤ Verif.dsq w c := by
      zify
      rw [hQy, sq_step, sq_step] at hlt'
      rw [d3, d4]
      omega
    have hgiven := h.neighbour (by omega) hey (hset _ (by omega)) hw
      (by rw [K.face y w hy hw, hPy, hQy]; simp)
    obtain ⟨w', p1, hw', p2, p3, p4⟩ := K.parent h hc hw (by omega) hew hQ (by omega)
    rcases p4 with ⟨rfl, hcl⟩ | ⟨_, q1, q2⟩ | ⟨_, q0, q1, q2⟩
    · have := ((K.close w w' hw hw').mp hcl).2
      rw [abs_le] at this
      omega
    · have : w' = y := K.ext hw' hy (by omega) (by omega)
      subst this
      exact p3 (h.mono (by omega) (by omega) hws hgiven)
    · have hy2 : d.inB (K.cell (K.P y - 1) (K.Q y)) = true := by
        have b1 := K.inB' hw'
        have b2 := K.inB' hy
        rw [K.inB]; omega
      have e1 := K.P_cell (K.P y - 1) (K.Q y)
      have e2 := K.Q_cell (K.P y - 1) (K.Q y)
      obtain ⟨s2, f1, f2, f3, f4⟩ := K.left h hb hset hc hy hy2 e1 e2 hey hvy (by omega) (by omega) hs
        (by omega)
      exact ih (m - 1) (by omega) w' _ s2 (by omega) p1 (by omega) hw' hy2
        (by omega) (by omega) (by omega) f1 f2 f3 f4

/-- The induction step: with all earlier buckets settled, an entry above and not left of its source
does not improve the cell below it. -/
theorem settle (h : Start d S s0) {b : Nat} (hb : b ≤ maxSq d) (hset : ∀ b', b' < b → Settled d s0 b')
    {c w x : Idx} (hew : Ent s0 w c) (hwb : Verif.dsq w c = b) (hx : d.inB x = true)
    (hQ : K.Q c < K.Q w) (hP : K.P c ≤ K.P w) (hPx : K.P x = K.P w) (hQx : K.Q x = K.Q w - 1) :
    ValLE (after s0 b) x (Verif.dsq x c) := by
  obtain ⟨hw, hcS⟩ := hew.mem h (by omega)
  have hc := h.pts c hcS
  have dw := K.dsq w c hw hc
  have dx := K.dsq x c hx hc
  have hxw : Verif.dsq x c < Verif.dsq w c := by
    have := sq_step (K.Q w) (K.Q c)
    zify; rw [dw, dx, hPx, hQx]; omega
  obtain ⟨w', p1, hw', p2, p3, p4⟩ := K.parent h hc hw (by omega) hew hQ hP
  rcases p4 with ⟨rfl, hcl⟩ | ⟨_, q1, q2⟩ | ⟨hne', q0, q1, q2⟩
  · -- the source itself queued the entry
    obtain ⟨c1, c2⟩ := (K.close w w' hw hw').mp hcl
    by_cases hxc : x = w'
    · subst hxc
      rw [dsq_eq_zero.mpr rfl]
      exact h.mono (t := 0) (by omega) (by omega) (Nat.le_refl _)
        ⟨0, by simpa [after] using h.inv.src x hcS, Nat.le_refl _⟩
    · refine h.mono (t := 1) (by omega) (by omega) (Nat.le_refl _)
        (near_value h.small h.pts h.inv hx hcS ?_ hxc)
      rw [K.close x w' hx hw', hPx, hQx]
      refine ⟨c1, ?_⟩
      rw [abs_le] at c2 ⊢
      omega
  · have : w' = x := K.ext hw' hx (by omega) (by omega)
    subst this
    exact h.mono (by omega) (by omega) (Nat.le_refl _) (h.ent_value (by omega) p1)
  · -- the entry came from the left
    have hy : d.inB (K.cell (K.P w - 1) (K.Q w - 1)) = true := by
      have b1 := K.inB' hw'
      have b2 := K.inB' hx
      rw [K.inB]; omega
    have hPy := K.P_cell (K.P w - 1) (K.Q w - 1)
    have hQy := K.Q_cell (K.P w - 1) (K.Q w - 1)
    generalize K.cell (K.P w - 1) (K.Q w - 1) = y at hy hPy hQy
    have dy := K.dsq y c hy hc
    have dw' := K.dsq w' c hw' hc
    have hyw : Verif.dsq y c < Verif.dsq w' c := by
      have := sq_step (K.Q w) (K.Q c)
      zify; rw [dy, dw', hPy, hQy, q1, q2]; omega
    have hval := hset _ (by omega) w' c y p1 rfl hy
      (by rw [K.face w' y hw' hy, hPy, hQy, q1, q2]; simp) hyw
    obtain ⟨s, hsS, hvs, hle⟩ := h.val_of_le (by omega) hy hval
    obtain ⟨hvs', hes⟩ := h.settled_val _ (by omega) (fun b' hb' => hset b' (by omega)) y s hy hvs
      (by omega)
    have hsB := h.pts s hsS
    have ds := K.dsq y s hy hsB
    have dxs := K.dsq x s hx hsB
    have hn := h.neighbour (by omega) hes (hset _ (by omega)) hx
      (by rw [K.face y x hy hx, hPy, hQy, hPx, hQx]; simp)
    by_cases hdone : Verif.dsq x s ≤ Verif.dsq x c
    · exact h.mono (by omega) (by omega) hdone hn
    · have hs : K.P s < K.P c := by
        push Not at hdone
        zify at hdone hle
        rw [dx, dxs, hPx, hQx] at hdone
        rw [ds, dy, hPy, hQy, sq_step (K.P w), sq_step (K.P w)] at hle
        omega
      have hle' := hle
      zify at hle'
      rw [ds, dy, hPy, hQy] at hle'
      have e1 : (K.P w - 1 - K.P c) ^ 2 < (K.P w - 1 - K.P s) ^ 2 := sq_far hs (by omega)
      have hr : K.Q c < K.Q w - 1 := by
        by_contra hcon
        have : K.Q w - 1 = K.Q c := by omega
        rw [this, sub_self] at hle'
        have := sq_nonneg (K.Q c - K.Q s)
        omega
      obtain ⟨w2, r1, hw2, r2, r3, r4⟩ := K.parent h hc hw' (by omega) p1 (by omega) (by omega)
      rcases r4 with ⟨rfl, hcl⟩ | ⟨_, t1, t2⟩ | ⟨_, t0, t1, t2⟩
      · have := ((K.close w' w2 hw' hw2).mp hcl).2
        rw [abs_le] at this
        omega
      · have : w2 = y := K.ext hw2 hy (by omega) (by omega)
        subst this
        refine h.mono (by omega) (by omega) (Nat.le_refl _) (h.forward (by omega) r1 hx
          (by rw [K.face w2 x hy hx, hPy, hQy, hPx, hQx]; simp) ?_)
        have := sq_step (K.P w) (K.P c)
        zify; rw [dy, dx, hPy, hQy, hPx, hQx]; omega
      · exfalso
        have hy2 : d.inB (K.cell (K.P y - 1) (K.Q y)) = true := by
          have b1 := K.inB' hw2
          have b2 := K.inB' hy
          rw [K.inB]; omega
        have e1 := K.P_cell (K.P y - 1) (K.Q y)
        have e2 := K.Q_cell (K.P y - 1) (K.Q y)
        obtain ⟨s2, f1, f2, f3, f4⟩ := K.left h (by omega) hset hc hy hy2 e1 e2 hes hvs' (by omega)
          (by omega) hs (by omega)
        exact K.descend h (by omega) hset hc (K.P w2 - K.P c).toNat w2 _ s2 (by omega) r1 (by omega)
          hw2 hy2 (by omega) (by omega) (by omega) f1 f2 f3 f4

theorem settled (K : Chart d) (h : Start d S s0) : ∀ b, b ≤ maxSq d → Settled d s0 b := by
  intro b
  induction b using Nat.strong_induction_on with
  | _ b ih =>
    intro hb w c x he hwb hx hadj hlt
    have hset : ∀ b', b' < b → Settled d s0 b' := fun b' hb' => ih b' hb' (by omega)
    obtain ⟨hw, hcS⟩ := he.mem h (by omega)
    have hc := h.pts c hcS
    -- choose the coordinates
    have main : ∀ K : Chart d, K.P x = K.P w → (K.Q x = K.Q w - 1) →
        ValLE (after s0 b) x (Verif.dsq x c) := by
      intro K hPx hQx
      have hQ : K.Q c < K.Q w := by
        have dw := K.dsq w c hw hc
        have dx := K.dsq x c hx hc
        rw [← hwb] at hlt
        zify at hlt
        rw [dw, dx, hPx, hQx, sq_step] at hlt
        omega
      by_cases hP : K.P c ≤ K.P w
      · exact K.settle h hb hset he hwb hx hQ hP hPx hQx
      · refine K.flip.settle h hb hset he hwb hx hQ ?_ ?_ hQx
        · show - K.P c ≤ - K.P w; omega
        · show - K.P x = - K.P w; omega
    have hf := (K.face w x hw hx).mp hadj
    simp only [Int.abs_eq_natAbs] at hf
    have hcases : (K.P x = K.P w ∧ (K.Q x = K.Q w - 1 ∨ K.Q x = K.Q w + 1)) ∨
        (K.Q x = K.Q w ∧ (K.P x = K.P w - 1 ∨ K.P x = K.P w + 1)) := by omega
    rcases hcases with ⟨q1, q2 | q2⟩ | ⟨q1, q2 | q2⟩
    · exact main K q1 q2
    · refine main K.swap.flip.swap q1 ?_
      show - K.Q x = - K.Q w - 1; omega
    · exact main K.swap q1 q2
    · refine main K.flip.swap q1 ?_
      show - K.P x = - K.P w - 1; omega

end Chart

/-- Coordinates of a grid with one cell along x. -/
def chartX (h : d.nx = 1) : Chart d where
  P v := v.y
  Q v := v.z
  cell a b := ⟨0, a, b⟩
  P_cell _ _ := rfl
  Q_cell _ _ := rfl
  cell_PQ v hv := by
    rw [Dims.inB_iff, h] at hv
    obtain ⟨x, y, z⟩ := v
    have h0 : x = 0 := by dsimp only at hv; omega
    subst h0
    rfl
  loP := 0
  hiP := d.ny - 1
  loQ := 0
  hiQ := d.nz - 1
  inB a b := by rw [Dims.inB_iff, h]; dsimp only; omega
  dsq u v hu hv := by
    rw [Dims.inB_iff, h] at hu hv
    rw [dsq_cast, show u.x = v.x by omega, sub_self]
    ring
  face u v hu hv := by
    rw [Dims.inB_iff, h] at hu hv
    unfold FaceAdj
    rw [show u.x = v.x by omega, sub_self]
    simp
  close u v hu hv := by
    rw [Dims.inB_iff, h] at hu hv
    unfold Close
    rw [show u.x = v.x by omega, sub_self]
    simp

/-- Coordinates of a grid with one cell along y. -/
def chartY (h : d.ny = 1) : Chart d where
  P v := v.x
  Q v := v.z
  cell a b := ⟨a, 0, b⟩
  P_cell _ _ := rfl
  Q_cell _ _ := rfl
  cell_PQ v hv := by
    rw [Dims.inB_iff, h] at hv
    obtain ⟨x, y, z⟩ := v
    have h0 : y = 0 := by dsimp only at hv; omega
    subst h0
    rfl
  loP := 0
  hiP := d.nx - 1
  loQ := 0
  hiQ := d.nz - 1
  inB a b := by rw [Dims.inB_iff, h]; dsimp only; omega
  dsq u v hu hv := by
    rw [Dims.inB_iff, h] at hu hv
    rw [dsq_cast, show u.y = v.y by omega, sub_self]
    ring
  face u v hu hv := by
    rw [Dims.inB_iff, h] at hu hv
    unfold FaceAdj
    rw [show u.y = v.y by omega, sub_self]
    simp
  close u v hu hv := by
    rw [Dims.inB_iff, h] at hu hv
    unfold Close
    rw [show u.y = v.y by omega, sub_self]
    simp

/-- Coordinates of a grid with one cell along z. -/
def chartZ (h : d.nz = 1) : Chart d where
  P v := v.x
  Q v := v.y
  cell a b := ⟨a, b, 0⟩
  P_cell _ _ := rfl
  Q_cell _ _ := rfl
  cell_PQ v hv := by
    rw [Dims.inB_iff, h] at hv
    obtain ⟨x, y, z⟩ := v
    have h0 : z = 0 := by dsimp only at hv; omega
    subst h0
    rfl
  loP := 0
  hiP := d.nx - 1
  loQ := 0
  hiQ := d.ny - 1
  inB a b := by rw [Dims.inB_iff, h]; dsimp only; omega
  dsq u v hu hv := by
    rw [Dims.inB_iff, h] at hu hv
    rw [dsq_cast, show u.z = v.z by omega, sub_self]
    ring
  face u v hu hv := by
    rw [Dims.inB_iff, h] at hu hv
    unfold FaceAdj
    rw [show u.z = v.z by omega, sub_self]
    simp
  close u v hu hv := by
    rw [Dims.inB_iff, h] at hu hv
    unfold Close
    rw [show u.z = v.z by omega, sub_self]
    simp

end DField

/-- The grid is one cell thick along some axis. -/
def Flat (d : Dims) : Prop := d.nx = 1 ∨ d.ny = 1 ∨ d.nz = 1

/-- Number of face steps between two cells. -/
def manhattan (u v : Idx) : Int := |u.x - v.x| + |u.y - v.y| + |u.z - v.z|

namespace DField

theorem flat_chart {d : Dims} (h : Flat d) : Nonempty (Chart d) := by
  rcases h with h | h | h
  · exact ⟨chartX h⟩
  · exact ⟨chartY h⟩
  · exact ⟨chartZ h⟩

/-- On a flat grid a cell's closest point bounds the distance of all its neighbours. -/
theorem flat_local {d : Dims} (hd : SmallGrid d) (hflat : Flat d) {pts : List Idx} {s : St}
    (h : build d pts = some s) {u v : Idx} (hu : d.inB u = true) (hv : d.inB v = true)
    (hadj : FaceAdj u v) {n : Nat} (hn : reported s u = some n) :
    ∃ m, reported s v = some m ∧ m ≤ dsq v (closest s u) := by
  obtain ⟨hpts, _⟩ := build_some hd h
  obtain ⟨s0, e1, e2, e3, _⟩ := (build_spec d pts).2 hpts
  rw [e1] at h
  simp only [Option.some.injEq] at h
  subst h
  have hst : Start d pts s0 := ⟨hd, hpts, e2, e3⟩
  obtain ⟨K⟩ := flat_chart hflat
  have hset := K.settled hst
  obtain ⟨c, hc, hval, _⟩ := hst.val_of_le (Nat.le_refl _) hu ⟨n, hn, Nat.le_refl _⟩
  have hle := dsq_le_maxSq hu (hpts c hc)
  obtain ⟨_, hent⟩ := hst.settled_val _ (Nat.le_refl _) (fun b hb => hset b (by omega)) u c hu hval
    (by omega)
  have hcl : closest (after s0 (maxSq d + 1)) u = c := hval.2
  rw [hcl]
  exact hst.mono (by omega) (Nat.le_refl _) (Nat.le_refl _)
    (hst.neighbour hle hent (hset _ hle) hv hadj)

theorem manhattan_zero {v p : Idx} (h : manhattan v p = 0) : v = p := by
  unfold manhattan at h
  simp only [Int.abs_eq_natAbs] at h
  obtain ⟨x, y, z⟩ := v
  obtain ⟨x', y', z'⟩ := p
  simp only [Idx.mk.injEq] at h ⊢
  omega

/-- A cell other than `p` has a face neighbour one step nearer to `p`. -/
theorem manhattan_step {d : Dims} {v p : Idx} (hv : d.inB v = true) (hp : d.inB p = true) {m : Nat}
    (h : manhattan v p = (m + 1 : Nat)) :
    ∃ u, d.inB u = true ∧ FaceAdj u v ∧ manhattan u p = m := by
  rw [Dims.inB_iff] at hv hp
  unfold manhattan at h ⊢
  unfold FaceAdj
  simp only [Dims.inB_iff, Int.abs_eq_natAbs] at h ⊢
  rcases lt_trichotomy v.x p.x with hx | hx | hx
  · exact ⟨⟨v.x + 1, v.y, v.z⟩, by dsimp only; omega, by dsimp only; omega, by dsimp only; omega⟩
  · rcases lt_trichotomy v.y p.y with hy | hy | hy
    · exact ⟨⟨v.x, v.y + 1, v.z⟩, by dsimp only; omega, by dsimp only; omega, by dsimp only; omega⟩
    · rcases lt_trichotomy v.z p.z with hz | hz | hz
      · exact ⟨⟨v.x, v.y, v.z + 1⟩, by dsimp only; omega, by dsimp only; omega, by dsimp only; omega⟩
      · omega
      · exact ⟨⟨v.x, v.y, v.z - 1⟩, by dsimp only; omega, by dsimp only; omega, by dsimp only; omega⟩
    · exact ⟨⟨v.x, v.y - 1, v.z⟩, by dsimp only; omega, by dsimp only; omega, by dsimp only; omega⟩
  · exact ⟨⟨v.x - 1, v.y, v.z⟩, by dsimp only; omega, by dsimp only; omega, by dsimp only; omega⟩

/-- One face step changes the distance to a point by at most one. -/
theorem dsq_face_le {u v : Idx} (c : Idx) (h : FaceAdj u v) {k : Nat} (hk : dsq u c ≤ k ^ 2) :
    dsq v c ≤ (k + 1) ^ 2 := by
  obtain ⟨δ, _, hf, rfl⟩ := face_move h
  have hadd := dsq_add u δ c
  have hc := dsq_cast u c
  zify at hk ⊢
  rw [hadd]
  rw [hc] at hk ⊢
  have key : ∀ a : Int, a ^ 2 ≤ (k : Int) ^ 2 → a ≤ k ∧ -a ≤ k := by
    intro a ha
    have := abs_le_of_sq_le_sq ha (by positivity)
    rw [abs_le] at this
    omega
  have kx := key (u.x - c.x) (by nlinarith [sq_nonneg (u.y - c.y), sq_nonneg (u.z - c.z)])
  have ky := key (u.y - c.y) (by nlinarith [sq_nonneg (u.x - c.x), sq_nonneg (u.z - c.z)])
  have kz := key (u.z - c.z) (by nlinarith [sq_nonneg (u.x - c.x), sq_nonneg (u.y - c.y)])
  have hexp : ((k : Int) + 1) ^ 2 = (k : Int) ^ 2 + 2 * k + 1 := by ring
  rw [hexp]
  rcases face_cases hf with rfl | rfl | rfl | rfl | rfl | rfl <;>
    norm_num <;> omega

theorem flat_manhattan {d : Dims} (hd : SmallGrid d) (hflat : Flat d) {pts : List Idx} {s : St}
    (h : build d pts = some s) {p : Idx} (hp : p ∈ pts) : ∀ (m : Nat) (v : Idx), d.inB v = true →
      manhattan v p = m → ∃ n, reported s v = some n ∧ n ≤ m ^ 2 := by
  obtain ⟨hpts, _⟩ := build_some hd h
  intro m
  induction m with
  | zero =>
    intro v hv hm
    have := manhattan_zero hm
    subst this
    exact ⟨0, ((C09_zero_iff_source hd h (inB_iff_spec.mp hv)).1).mpr hp, by simp⟩
  | succ m ih =>
    intro v hv hm
    obtain ⟨u, hu, hadj, hmu⟩ := manhattan_step hv (hpts p hp) hm
    obtain ⟨n, hn, hle⟩ := ih u hu hmu
    obtain ⟨k, hk, hkle⟩ := flat_local hd hflat h hu hv hadj hn
    obtain ⟨_, hn2, _⟩ := C08_sound hd h (inB_iff_spec.mp hu) hn
    rw [← dsq_sqDist] at hn2
    have hn3 : n = dsq u (closest s u) := by omega
    exact ⟨k, hk, hkle.trans (dsq_face_le _ hadj (by omega))⟩

end DField

end Verif
