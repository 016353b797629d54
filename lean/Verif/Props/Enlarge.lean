import Verif.Props.ConvexFloat
import Verif.Spec.Placement

/-!
# Enlarging a map with free cells (C135)

The same sources are propagated in a grid and in a larger grid that contains it.  On flat grids the larger
run, restricted to the cells of the smaller grid, is the smaller run.
-/

namespace Verif

open Spec SdfGen DField

namespace DField

variable {d d' : Dims} {S S' : List Idx} {o : Idx} {t : Nat} {s s' : St}

/-- A queue entry of the larger grid, with the indices of the smaller grid. -/
def back (o : Idx) (e : BCell) : BCell := ⟨e.dist, e.dir, e.loc - o, e.cp - o⟩

/-- The entry is for a cell of the smaller grid. -/
def inner (d : Dims) (o : Idx) (e : BCell) : Bool := d.inB (e.loc - o)

/-- The larger run, restricted to the smaller grid, agrees with the smaller run from bucket `t` on. -/
structure Agree (d : Dims) (o : Idx) (t : Nat) (s s' : St) : Prop where
  val : ∀ v, d.inB v = true → (s.field.get v).dist = (s'.field.get (v + o)).dist
  ent : ∀ n, t ≤ n → s.bucket n = ((s'.bucket n).filter (inner d o)).map (back o)

theorem idx_add_sub (v o : Idx) : v + o - o = v := by ext <;> simp
theorem idx_sub_add (v o : Idx) : v - o + o = v := by ext <;> simp
theorem idx_comm (v o δ : Idx) : v - o + δ = v + δ - o := by ext <;> simp <;> omega

theorem dsq_shift (a c o : Idx) : dsq (a - o) (c - o) = dsq a c := by
  zify
  rw [dsq_cast, dsq_cast]
  simp only [Idx.sub_x, Idx.sub_y, Idx.sub_z]
  ring

theorem placed_inB (h : PlacedIn d d' o) {v : Idx} (hv : d.inB v = true) : d'.inB (v + o) = true := by
  obtain ⟨⟨a, b⟩, ⟨c, e⟩, f, g⟩ := h
  rw [Dims.inB_iff] at hv ⊢
  simp only [Idx.add_x, Idx.add_y, Idx.add_z]
  omega

theorem placed_maxSq (h : PlacedIn d d' o) : maxSq d ≤ maxSq d' := by
  obtain ⟨⟨a, b⟩, ⟨c, e⟩, f, g⟩ := h
  have hx : d.nx ≤ d'.nx := by omega
  have hy : d.ny ≤ d'.ny := by omega
  have hz : d.nz ≤ d'.nz := by omega
  exact Nat.add_le_add (Nat.add_le_add (Nat.mul_le_mul hx hx) (Nat.mul_le_mul hy hy)) (Nat.mul_le_mul hz hz)

/-- A step of the larger run that does not improve a cell of the smaller grid. -/
theorem Agree.outer (h : Agree d o t s s') {b : Nat} {e : BCell} {δ : Idx} {k : Nat} (hi : Inv d' S' k s')
    (hout : d.inB (e.loc + δ - o) = false ∨ ValLE s' (e.loc + δ) (dsq (e.loc + δ) e.cp)) :
    Agree d o t s (relax b e s' δ) := by
  unfold relax
  rw [hi.dims]
  by_cases hin : d'.inB (e.loc + δ) = true
  · simp only [hin, if_true]
    by_cases hmax : maxSq d' < dsq (e.loc + δ) e.cp
    · simp only [hmax, if_true]
      exact ⟨h.val, h.ent⟩
    · simp only [hmax, if_false]
      by_cases hbet : better (dsq (e.loc + δ) e.cp) (s'.field.get (e.loc + δ)).dist = true
      · simp only [hbet, if_true]
        rcases hout with hout | ⟨n, hn, hle⟩
        · have hlt : dsq (e.loc + δ) e.cp < s'.q.length := by rw [hi.qlen]; omega
          refine ⟨fun v hv => ?_, fun n hn => ?_⟩
          · rw [h.val v hv, Grid.get_set hi.wf]
            split
            · rename_i he
              rw [he.1, idx_add_sub, hv] at hout
              exact absurd hout (by simp)
            · rfl
          · rw [h.ent n hn]
            simp only [St.bucket, bucket_modify _ _ _ _ hlt]
            split
            · rw [List.filter_append]
              simp [inner, hout]
            · rfl
        · rw [hn] at hbet
          simp only [better, decide_eq_true_eq] at hbet
          omega
      · simp only [hbet]
        exact ⟨h.val, h.ent⟩
  · simp only [hin]
    exact ⟨h.val, h.ent⟩

/-- A step from a cell of the smaller grid, in both runs. -/
theorem Agree.both (h : Agree d o t s s') (hp : PlacedIn d d' o) {b : Nat} {e : BCell} {δ : Idx} {k k' : Nat}
    (hi : Inv d S k s) (hi' : Inv d' S' k' s') (hc : d.inB (e.cp - o) = true) :
    Agree d o t (relax b (back o e) s δ) (relax b e s' δ) := by
  by_cases hin : d.inB (e.loc + δ - o) = true
  · have hin' : d'.inB (e.loc + δ) = true := by
      have := placed_inB hp hin
      rwa [idx_sub_add] at this
    have hc' : d'.inB e.cp = true := by
      have := placed_inB hp hc
      rwa [idx_sub_add] at this
    have hm : ¬ maxSq d < dsq (e.loc + δ) e.cp := by
      have := dsq_le_maxSq hin hc
      rw [dsq_shift] at this
      omega
    have hm' : ¬ maxSq d' < dsq (e.loc + δ) e.cp := by
      have := dsq_le_maxSq hin' hc'
      omega
    have hv := h.val _ hin
    rw [idx_sub_add] at hv
    unfold relax back
    simp only [idx_comm, dsq_shift]
    rw [hi.dims, hi'.dims, hv]
    simp only [hin, hin', hm, hm', if_true, if_false]
    by_cases hbet : better (dsq (e.loc + δ) e.cp) (s'.field.get (e.loc + δ)).dist = true
    · simp only [hbet, if_true]
      have hlt : dsq (e.loc + δ) e.cp < s.q.length := by rw [hi.qlen]; omega
      have hlt' : dsq (e.loc + δ) e.cp < s'.q.length := by rw [hi'.qlen]; omega
      have hb : s.field.dims.inB (e.loc + δ - o) = true := by rw [hi.dims]; exact hin
      have hb' : s'.field.dims.inB (e.loc + δ) = true := by rw [hi'.dims]; exact hin'
      refine ⟨fun v hv => ?_, fun n hn => ?_⟩
      · rw [Grid.get_set hi.wf, Grid.get_set hi'.wf]
        by_cases hvn : e.loc + δ - o = v
        · have : e.loc + δ = v + o := by rw [← hvn, idx_sub_add]
          rw [if_pos ⟨hvn, hb⟩, if_pos ⟨this, hb'⟩]
        · have : ¬ e.loc + δ = v + o := fun hc => hvn (by rw [hc, idx_add_sub])
          rw [if_neg (fun hc => hvn hc.1), if_neg (fun hc => this hc.1)]
          exact h.val v hv
      · have hen := h.ent n hn
        simp only [St.bucket, bucket_modify _ _ _ _ hlt, bucket_modify _ _ _ _ hlt'] at hen ⊢
        split
        · rw [List.filter_append, List.map_append, hen]
          congr 1
          simp [inner, hin, back]
        · exact hen
    · simp only [hbet]
      exact ⟨h.val, h.ent⟩
  · have hsame : relax b (back o e) s δ = s := by
      unfold relax back
      simp only [idx_comm]
      rw [hi.dims]
      simp [hin]
    rw [hsame]
    exact h.outer hi' (Or.inl (by simpa using hin))

/-- All entries of a bucket that start outside the smaller grid leave its cells alone. -/
def Quiet (d : Dims) (o : Idx) (b : Nat) (B : St) : Prop :=
  ∀ e ∈ B.bucket b, inner d o e = false → ∀ δ' ∈ dirs27, e.dir = dirNum δ' → ∀ δ ∈ nbhd b δ',
    d.inB (e.loc + δ - o) = true → ValLE B (e.loc + δ) (dsq (e.loc + δ) e.cp)

theorem outer_cell {B : St} {b : Nat} (hd' : maxSq d' < 2 ^ 31) (hb : b ≤ maxSq d')
    (hS' : ∀ p ∈ S', d'.inB p = true) (hB : Inv d' S' b B) (hq : Quiet d o b B) {e : BCell}
    (he : e ∈ B.bucket b) (hout : inner d o e = false) (hm : Mid d' S' B b s') (h : Agree d o t s s') :
    Mid d' S' B b (processCell b s' e) ∧ Agree d o t s (processCell b s' e) := by
  obtain ⟨δ', hδ', hdir, _⟩ := hB.fwd b e (Nat.le_refl _) he
  rw [processCell_eq hd' hb hδ' hdir]
  have key : ∀ l : List Idx, (∀ δ ∈ l, δ ∈ nbhd b δ') → ∀ s', Mid d' S' B b s' → Agree d o t s s' →
      Mid d' S' B b (l.foldl (relax b e) s') ∧ Agree d o t s (l.foldl (relax b e) s') := by
    intro l
    induction l with
    | nil => intro _ s' hm h; exact ⟨hm, h⟩
    | cons δ l ih =>
      intro hl s' hm h
      have hδ := hl δ (List.mem_cons_self ..)
      refine ih (fun x hx => hl x (List.mem_cons_of_mem _ hx)) _
        (hm.relax hd' hS' (hB.entry b e he) he hδ' hdir hδ) (h.outer hm.inv ?_)
      cases hc : d.inB (e.loc + δ - o) with
      | false => exact Or.inl rfl
      | true => exact Or.inr (hm.mono _ _ (hq e he hout δ' hδ' hdir δ hδ hc))
  exact key _ (fun _ hx => hx) s' hm h

theorem inner_cell {A B : St} {b : Nat} (hp : PlacedIn d d' o) (hd' : maxSq d' < 2 ^ 31) (hb : b ≤ maxSq d)
    (hS : ∀ p ∈ S, d.inB p = true) (hS' : ∀ p ∈ S', d'.inB p = true) (hA : Inv d S b A) (hB : Inv d' S' b B)
    {e : BCell} (he : e ∈ B.bucket b) (he' : back o e ∈ A.bucket b) (hm : Mid d S A b s)
    (hm' : Mid d' S' B b s') (h : Agree d o t s s') :
    Mid d S A b (processCell b s (back o e)) ∧ Mid d' S' B b (processCell b s' e) ∧
      Agree d o t (processCell b s (back o e)) (processCell b s' e) := by
  have hmax := placed_maxSq hp
  obtain ⟨δ', hδ', hdir, _⟩ := hB.fwd b e (Nat.le_refl _) he
  have hdir' : (back o e).dir = dirNum δ' := hdir
  rw [processCell_eq hd' (by omega) hδ' hdir, processCell_eq (by omega) hb hδ' hdir']
  have hc : d.inB (e.cp - o) = true := hS _ (hA.entry b _ he').2.1
  have key : ∀ l : List Idx, (∀ δ ∈ l, δ ∈ nbhd b δ') → ∀ s s', Mid d S A b s → Mid d' S' B b s' →
      Agree d o t s s' → Mid d S A b (l.foldl (relax b (back o e)) s) ∧ Mid d' S' B b (l.foldl (relax b e) s') ∧
        Agree d o t (l.foldl (relax b (back o e)) s) (l.foldl (relax b e) s') := by
    intro l
    induction l with
    | nil => intro _ s s' hm hm' h; exact ⟨hm, hm', h⟩
    | cons δ l ih =>
      intro hl s s' hm hm' h
      have hδ := hl δ (List.mem_cons_self ..)
      exact ih (fun x hx => hl x (List.mem_cons_of_mem _ hx)) _ _
        (hm.relax (by omega) hS (hA.entry b _ he') he' hδ' hdir' hδ)
        (hm'.relax hd' hS' (hB.entry b e he) he hδ' hdir hδ) (h.both hp hm.inv hm'.inv hc)
  exact key _ (fun _ hx => hx) s s' hm hm' h

/-- One bucket in both runs. -/
theorem Agree.bucket {A B : St} {b : Nat} (hp : PlacedIn d d' o) (hd' : maxSq d' < 2 ^ 31) (hb : b ≤ maxSq d)
    (hS : ∀ p ∈ S, d.inB p = true) (hS' : ∀ p ∈ S', d'.inB p = true) (hA : Inv d S b A) (hB : Inv d' S' b B)
    (hq : Quiet d o b B) (h0 : Agree d o b A B) :
    Agree d o (b + 1) (processBucket A b) (processBucket B b) := by
  have hmax := placed_maxSq hp
  have key : ∀ l : List BCell, (∀ e ∈ l, e ∈ B.bucket b) → ∀ s s', Mid d S A b s → Mid d' S' B b s' →
      Agree d o (b + 1) s s' →
        Agree d o (b + 1) (((l.filter (inner d o)).map (back o)).foldl (processCell b) s)
          (l.foldl (processCell b) s') := by
    intro l
    induction l with
    | nil => intro _ s s' _ _ h; exact h
    | cons e l ih =>
      intro hl s s' hm hm' h
      have he := hl e (List.mem_cons_self ..)
      have hl' : ∀ e ∈ l, e ∈ B.bucket b := fun x hx => hl x (List.mem_cons_of_mem _ hx)
      cases hin : inner d o e with
      | false =>
        rw [List.filter_cons_of_neg (by simp [hin]), List.foldl_cons]
        obtain ⟨g1, g2⟩ := outer_cell hd' (by omega) hS' hB hq he hin hm' h
        exact ih hl' _ _ hm g1 g2
      | true =>
        rw [List.filter_cons_of_pos hin, List.map_cons, List.foldl_cons, List.foldl_cons]
        have he' : back o e ∈ A.bucket b := by
          rw [h0.ent b (Nat.le_refl _)]
          exact List.mem_map_of_mem (List.mem_filter.mpr ⟨he, hin⟩)
        obtain ⟨g1, g2, g3⟩ := inner_cell hp hd' hb hS hS' hA hB he he' hm hm' h
        exact ih hl' _ _ g1 g2 g3
  have start := key (B.bucket b) (fun _ h => h) A B
    ⟨hA.weaken (Nat.le_succ _), Mono.refl _, fun _ _ he => Or.inl he, fun _ => Or.inl rfl, fun _ _ he => he⟩
    ⟨hB.weaken (Nat.le_succ _), Mono.refl _, fun _ _ he => Or.inl he, fun _ => Or.inl rfl, fun _ _ he => he⟩
    ⟨h0.val, fun n hn => h0.ent n (by omega)⟩
  rw [← h0.ent b (Nat.le_refl _)] at start
  refine ⟨start.val, fun n hn => ?_⟩
  have := start.ent n hn
  simp only [processBucket, St.bucket, bucket_set_nil] at this ⊢
  rw [if_neg (by omega), if_neg (by omega)]
  exact this

/-- One bucket of the larger run alone, after the smaller run has ended. -/
theorem Agree.rest {A B : St} {b : Nat} (hd' : maxSq d' < 2 ^ 31) (hb : b ≤ maxSq d')
    (hS' : ∀ p ∈ S', d'.inB p = true) (hB : Inv d' S' b B) (hq : Quiet d o b B)
    (hout : ∀ e ∈ B.bucket b, inner d o e = false) (h : Agree d o t A B) (ht : b < t) :
    Agree d o t A (processBucket B b) := by
  have key : ∀ l : List BCell, (∀ e ∈ l, e ∈ B.bucket b) → ∀ s', Mid d' S' B b s' →
      Agree d o t A s' → Agree d o t A (l.foldl (processCell b) s') := by
    intro l
    induction l with
    | nil => intro _ s' _ h; exact h
    | cons e l ih =>
      intro hl s' hm' h
      have he := hl e (List.mem_cons_self ..)
      obtain ⟨g1, g2⟩ := outer_cell hd' hb hS' hB hq he (hout e he) hm' h
      exact ih (fun x hx => hl x (List.mem_cons_of_mem _ hx)) _ g1 g2
  have start := key (B.bucket b) (fun _ h => h) B
    ⟨hB.weaken (Nat.le_succ _), Mono.refl _, fun _ _ he => Or.inl he, fun _ => Or.inl rfl, fun _ _ he => he⟩ h
  refine ⟨start.val, fun n hn => ?_⟩
  have := start.ent n hn
  simp only [processBucket, St.bucket, bucket_set_nil] at this ⊢
  rw [if_neg (by omega)]
  exact this

/-- On a flat grid nothing outside the smaller grid improves its cells. -/
theorem flat_quiet {s0 : St} (hst : Start d' S' s0) (hflat : Flat d') (hp : PlacedIn d d' o)
    (hin : ∀ c ∈ S', d.inB (c - o) = true) {b : Nat} (hb : b ≤ maxSq d') : Quiet d o b (after s0 b) := by
  obtain ⟨K⟩ := flat_chart hflat
  have hset := K.settled hst b hb
  intro e he hout δ' hδ' hdir δ hδ hx
  have hinv := after_inv hst.small hst.pts hst.inv b (by omega)
  obtain ⟨e1, e2, e3, _⟩ := hinv.entry b e he
  have hc := hin _ e2
  have hb1 : 1 ≤ b := by
    rcases Nat.eq_zero_or_pos b with h0 | h0
    · rw [h0] at e3
      rw [inner, dsq_eq_zero.mp e3, hc] at hout
      exact absurd hout (by simp)
    · exact h0
  obtain ⟨d1, d2, _⟩ := (mem_nbhd_pos hb1).mp hδ
  have hx' : d'.inB (e.loc + δ) = true := by
    have := placed_inB hp hx
    rwa [idx_sub_add] at this
  have hlt : dsq (e.loc + δ) e.cp < b := by
    have hadd := dsq_add e.loc δ e.cp
    have hno : ¬ d.inB (e.loc - o) = true := by rw [show d.inB (e.loc - o) = false from hout]; simp
    rw [Dims.inB_iff] at hx hc hno
    simp only [Idx.add_x, Idx.add_y, Idx.add_z, Idx.sub_x, Idx.sub_y, Idx.sub_z] at hx hc hno
    rw [e3] at hadd
    rcases face_cases d2 with rfl | rfl | rfl | rfl | rfl | rfl <;> simp at hadd hx <;> omega
  have hadj : FaceAdj e.loc (e.loc + δ) := by
    unfold FaceAdj
    rcases face_cases d2 with rfl | rfl | rfl | rfl | rfl | rfl <;> simp
  exact hset e.loc e.cp (e.loc + δ) ⟨e, by rw [e3]; exact he, rfl, rfl⟩ e3 hx' hadj hlt

/-- Marking the sources. -/
theorem Agree.seeds (hp : PlacedIn d d' o) : ∀ (l : List Idx) (s s' : St),
    (s.field.WF ∧ s.field.dims = d ∧ 0 < s.q.length) → (s'.field.WF ∧ s'.field.dims = d' ∧ 0 < s'.q.length) →
    Agree d o 0 s s' → (∀ p ∈ l, d.inB p = true) →
    ∀ s1 s1', l.foldl seed (some s) = some s1 → (l.map (· + o)).foldl seed (some s') = some s1' →
      Agree d o 0 s1 s1' := by
  intro l
  induction l with
  | nil =>
    intro s s' _ _ h _ s1 s1' e e'
    simp only [List.foldl_nil, List.map_nil, Option.some.injEq] at e e'
    subst e e'
    exact h
  | cons p l ih =>
    rintro s s' ⟨w1, w2, w3⟩ ⟨w1', w2', w3'⟩ h hl s1 s1' e e'
    have hpin := hl p (List.mem_cons_self ..)
    have hpin' := placed_inB hp hpin
    have hb : s.field.dims.inB p = true := by rw [w2]; exact hpin
    have hb' : s'.field.dims.inB (p + o) = true := by rw [w2']; exact hpin'
    simp only [List.foldl_cons, List.map_cons, seed, Option.bind_some, hb, hb', if_true] at e e'
    refine ih _ _ ⟨w1.set _ _, by simp [w2], by simpa using w3⟩ ⟨w1'.set _ _, by simp [w2'], by simpa using w3'⟩
      ⟨fun v hv => ?_, fun n _ => ?_⟩ (fun q hq => hl q (List.mem_cons_of_mem _ hq)) s1 s1' e e'
    · rw [Grid.get_set w1, Grid.get_set w1']
      by_cases hvn : p = v
      · rw [if_pos ⟨hvn, hb⟩, if_pos ⟨by rw [hvn], hb'⟩]
      · have : ¬ p + o = v + o := fun hc => hvn (by rw [← idx_add_sub p o, hc, idx_add_sub])
        rw [if_neg (fun hc => hvn hc.1), if_neg (fun hc => this hc.1)]
        exact h.val v hv
    · have hen := h.ent n (Nat.zero_le _)
      simp only [St.bucket, bucket_modify _ _ _ _ w3, bucket_modify _ _ _ _ w3'] at hen ⊢
      split
      · rw [List.filter_append, List.map_append, hen]
        congr 1
        simp [inner, idx_add_sub, hpin, back]
      · exact hen

theorem agree_start (d d' : Dims) (o : Idx) : Agree d o 0 (start d) (start d') := by
  have hbk : ∀ (d : Dims) b, (start d).bucket b = [] := by
    intro d b
    simp only [start, St.bucket, List.getD_eq_getElem?_getD, List.getElem?_replicate]
    split <;> rfl
  refine ⟨fun v _ => ?_, fun n _ => ?_⟩
  · simp only [start, Grid.get_mk', ite_self]
  · rw [hbk, hbk]; rfl

/-- Both runs up to bucket `t`, if the larger one is quiet. -/
theorem agree_after {s0 s0' : St} (hst : Start d S s0) (hst' : Start d' S' s0') (hp : PlacedIn d d' o)
    (hq : ∀ b, b ≤ maxSq d' → Quiet d o b (after s0' b)) (h : Agree d o 0 s0 s0') :
    ∀ t, t ≤ maxSq d + 1 → Agree d o t (after s0 t) (after s0' t) := by
  have hmax := placed_maxSq hp
  intro t
  induction t with
  | zero => intro _; simpa [after] using h
  | succ t ih =>
    intro ht
    rw [after_succ, after_succ]
    exact (ih (by omega)).bucket hp hst'.small (by omega) hst.pts hst'.pts
      (after_inv hst.small hst.pts hst.inv t (by omega)) (after_inv hst'.small hst'.pts hst'.inv t (by omega))
      (hq t (by omega))

theorem agree_end {s0 s0' : St} (hst : Start d S s0) (hst' : Start d' S' s0') (hp : PlacedIn d d' o)
    (hin : ∀ c ∈ S', d.inB (c - o) = true)
    (hq : ∀ b, b ≤ maxSq d' → Quiet d o b (after s0' b)) (h : Agree d o 0 s0 s0') {v : Idx}
    (hv : d.inB v = true) :
    ((after s0 (maxSq d + 1)).field.get v).dist = ((after s0' (maxSq d' + 1)).field.get (v + o)).dist := by
  have hmax := placed_maxSq hp
  have key : ∀ k, maxSq d + 1 + k ≤ maxSq d' + 1 →
      Agree d o (maxSq d' + 1) (after s0 (maxSq d + 1)) (after s0' (maxSq d + 1 + k)) := by
    intro k
    induction k with
    | zero =>
      intro _
      have := agree_after hst hst' hp hq h (maxSq d + 1) (Nat.le_refl _)
      exact ⟨this.val, fun n hn => this.ent n (by omega)⟩
    | succ k ih =>
      intro hk
      rw [show maxSq d + 1 + (k + 1) = (maxSq d + 1 + k) + 1 by omega, after_succ s0']
      have hinv := after_inv hst'.small hst'.pts hst'.inv (maxSq d + 1 + k) (by omega)
      refine (ih (by omega)).rest hst'.small (by omega) hst'.pts hinv (hq _ (by omega)) (fun e he => ?_) (by omega)
      obtain ⟨_, e2, e3, _⟩ := hinv.entry _ e he
      by_contra hc
      have := dsq_le_maxSq (show d.inB (e.loc - o) = true by simpa [inner] using hc) (hin _ e2)
      rw [dsq_shift] at this
      omega
  have := (key (maxSq d' - maxSq d) (by omega)).val v hv
  rwa [show maxSq d + 1 + (maxSq d' - maxSq d) = maxSq d' + 1 by omega] at this

end DField

open DField

/-- The runs on a grid and on a larger flat grid with the same sources report the same distances. -/
theorem reported_enlarged {d d' : Dims} {o : Idx} (hd' : SmallGrid d') (hflat : Flat d') (hp : PlacedIn d d' o)
    {pts : List Idx} {s s' : St} (h : build d pts = some s) (h' : build d' (pts.map (· + o)) = some s')
    {v : Idx} (hv : InBounds d v) : reported s' (v + o) = reported s v := by
  have hmax := placed_maxSq hp
  have hd : SmallGrid d := Nat.lt_of_le_of_lt hmax hd'
  obtain ⟨hpts, _⟩ := build_some hd h
  obtain ⟨hpts', _⟩ := build_some hd' h'
  have hbk : ∀ (d : Dims) b, (start d).bucket b = [] := by
    intro d b
    simp only [start, St.bucket, List.getD_eq_getElem?_getD, List.getElem?_replicate]
    split <;> rfl
  have hdist : ∀ (d : Dims) v, d.inB v = true → ((start d).field.get v).dist ≠ none → v ∈ ([] : List Idx) := by
    intro d v _ hv
    simp only [start, Grid.get_mk', ite_self] at hv
    exact absurd rfl hv
  obtain ⟨s0, e1, e2, _, e4, _⟩ := (seed_spec (d := d) pts [] (start d) (by simp) (start_inv d)
    (fun b _ => hbk d b) (hdist d)).2 hpts
  obtain ⟨s0', f1, f2, _, f4, _⟩ := (seed_spec (d := d') (pts.map (· + o)) [] (start d') (by simp) (start_inv d')
    (fun b _ => hbk d' b) (hdist d')).2 hpts'
  have hs : s = after s0 (maxSq d + 1) := by
    simp only [build, e1, Option.map_some, Option.some.injEq] at h; exact h.symm
  have hs' : s' = after s0' (maxSq d' + 1) := by
    simp only [build, f1, Option.map_some, Option.some.injEq] at h'; exact h'.symm
  have hin : ∀ c ∈ [] ++ pts.map (· + o), d.inB (c - o) = true := by
    intro c hc
    rw [List.nil_append, List.mem_map] at hc
    obtain ⟨p, hp, rfl⟩ := hc
    rw [idx_add_sub]; exact hpts p hp
  have hst : Start d ([] ++ pts) s0 := ⟨hd, by simpa using hpts, e2, e4⟩
  have hst' : Start d' ([] ++ pts.map (· + o)) s0' := ⟨hd', by rw [List.nil_append]; exact hpts', f2, f4⟩
  have ha := (agree_start d d' o).seeds hp pts _ _
    ⟨(start_inv d).wf, rfl, by simp [start]⟩ ⟨(start_inv d').wf, rfl, by simp [start]⟩ hpts s0 s0' e1 f1
  rw [hs, hs']
  exact (agree_end hst hst' hp hin (fun b hb => flat_quiet hst' hflat hp hin hb) ha (inB_iff_spec.mpr hv)).symm

/-! ## The signed distance field -/

/-- The order of the scan. -/
def Before (a b : Idx) : Prop := a.x < b.x ∨ (a.x = b.x ∧ (a.y < b.y ∨ (a.y = b.y ∧ a.z < b.z)))

theorem before_all (d : Dims) : d.all.Pairwise Before := by
  unfold Dims.all
  rw [List.pairwise_flatMap]
  refine ⟨fun x _ => ?_, ?_⟩
  · rw [List.pairwise_flatMap]
    refine ⟨fun y _ => ?_, ?_⟩
    · rw [List.pairwise_map]
      exact List.pairwise_lt_range.imp fun {a b} h => Or.inr ⟨rfl, Or.inr ⟨rfl, by show (a : ℤ) < b; omega⟩⟩
    · refine List.pairwise_lt_range.imp fun {a b} h u hu v hv => ?_
      simp only [List.mem_map] at hu hv
      obtain ⟨k, _, rfl⟩ := hu
      obtain ⟨l, _, rfl⟩ := hv
      exact Or.inr ⟨rfl, Or.inl (by show (a : ℤ) < b; omega)⟩
  · refine List.pairwise_lt_range.imp fun {a b} h u hu v hv => ?_
    simp only [List.mem_flatMap, List.mem_map] at hu hv
    obtain ⟨k, _, k', _, rfl⟩ := hu
    obtain ⟨l, _, l', _, rfl⟩ := hv
    exact Or.inl (by show (a : ℤ) < b; omega)

/-- The filled cells of the enlarged map, in the order of the scan, are those of the map. -/
theorem filled_enlarged {d d' : Dims} {off : Idx} (hp : PlacedIn d d' off) {f f' : Idx → Bool}
    (hsame : ∀ v, InBounds d v → f' (v + off) = f v)
    (hnew : ∀ w, InBounds d' w → ¬ InBounds d (w - off) → f' w = false) :
    d'.all.filter f' = (d.all.filter f).map (· + off) := by
  have p1 : (d'.all.filter f').Pairwise Before := (before_all d').filter _
  have p2 : ((d.all.filter f).map (· + off)).Pairwise Before := by
    rw [List.pairwise_map]
    refine ((before_all d).filter _).imp fun {a b} h => ?_
    unfold Before at h ⊢
    simp only [Idx.add_x, Idx.add_y, Idx.add_z]
    omega
  have nd : ∀ {l : List Idx}, l.Pairwise Before → l.Nodup := fun h =>
    h.imp fun {a b} h e => by subst e; unfold Before at h; omega
  refine List.Perm.eq_of_pairwise (le := Before) ?_ p1 p2 ?_
  · intro a b _ _ h1 h2
    unfold Before at h1 h2
    omega
  · rw [List.perm_ext_iff_of_nodup (nd p1) (nd p2)]
    intro w
    rw [List.mem_filter, Dims.mem_all, inB_iff_spec, List.mem_map]
    constructor
    · rintro ⟨h1, h2⟩
      by_cases hin : InBounds d (w - off)
      · refine ⟨w - off, ?_, idx_sub_add w off⟩
        rw [List.mem_filter, Dims.mem_all, inB_iff_spec]
        refine ⟨hin, ?_⟩
        rw [← hsame _ hin, idx_sub_add]; exact h2
      · rw [hnew w h1 hin] at h2
        exact absurd h2 (by simp)
    · rintro ⟨v, hv, rfl⟩
      rw [List.mem_filter, Dims.mem_all] at hv
      refine ⟨inB_iff_spec.mp (placed_inB hp hv.1), ?_⟩
      rw [hsame _ (inB_iff_spec.mp hv.1)]; exact hv.2

/-- The enlarged map: the cells of the map keep their class, the new cells are free. -/
def EnlargedFree (d d' : Dims) (off : Idx) (f f' : Idx → Bool) : Prop :=
  PlacedIn d d' off ∧ (∀ v, InBounds d v → f' (v + off) = f v) ∧
    ∀ w, InBounds d' w → ¬ InBounds d (w - off) → f' w = false

/-- C135 for two-dimensional maps, any rounding.  Enlarging a map with free cells leaves the stored value of
every free cell as it was, bit by bit.  Missing: maps at least two cells thick along every axis, where it
fails (`C135_false`). -/
theorem C135_flat_partial {R : Rounding} {res : ℝ} {d d' : Dims} (hd' : SmallGrid d') (hflat : Flat d') {off : Idx}
    {fill fill' : Idx → Option Bool} {f f' : Idx → Bool} (hf : Answers d fill f) (hf' : Answers d' fill' f')
    (hen : EnlargedFree d d' off f f') {oob oob' : FVal} {o o' : Out}
    (ho : extract R (res, res, res) d fill oob false = some o)
    (ho' : extract R (res, res, res) d' fill' oob' false = some o') {v : Idx} (hv : InBounds d v)
    (hfree : f v = false) : o'.sdf.get (v + off) = o.sdf.get v := by
  obtain ⟨hp, hsame, hnew⟩ := hen
  have hd : SmallGrid d := Nat.lt_of_le_of_lt (placed_maxSq hp) hd'
  obtain ⟨q, a, b, hq, hs⟩ := base_spec hd hf R res oob
  obtain ⟨q', a', b', hq', hs'⟩ := base_spec hd' hf' R res oob'
  rw [extract_false, hq] at ho
  rw [extract_false, hq'] at ho'
  rw [← Option.some.inj ho, ← Option.some.inj ho']
  have hv' : InBounds d' (v + off) := inB_iff_spec.mp (placed_inB hp (inB_iff_spec.mpr hv))
  have hb' := hs'.ha
  rw [filled_enlarged hp hsame hnew] at hb'
  rw [hs.val v hv, hs'.val _ hv', exactVal, exactVal, hsame v hv, hfree,
    reported_enlarged hd' hflat hp hs.ha hb' hv]
  simp

/-- C135 near obstacles, any map and rounding: where the nearest filled cell is less than `sqrt 8` cells away,
enlarging the map with free cells leaves the stored value as it was.  Missing: larger distances (`C135_false`). -/
theorem C135_near_partial {R : Rounding} {res : ℝ} {d d' : Dims} (hd' : SmallGrid d') {off : Idx}
    {fill fill' : Idx → Option Bool} {f f' : Idx → Bool} (hf : Answers d fill f) (hf' : Answers d' fill' f')
    (hen : EnlargedFree d d' off f f') {oob oob' : FVal} {o o' : Out}
    (ho : extract R (res, res, res) d fill oob false = some o)
    (ho' : extract R (res, res, res) d' fill' oob' false = some o') {v p : Idx} (hv : InBounds d v)
    (hfree : f v = false) (hpin : InBounds d p) (hpf : f p = true) (h8 : sqDist v p < 8) :
    o'.sdf.get (v + off) = o.sdf.get v := by
  obtain ⟨hp, hsame, hnew⟩ := hen
  have hd : SmallGrid d := Nat.lt_of_le_of_lt (placed_maxSq hp) hd'
  obtain ⟨q, a, b, hq, hs⟩ := base_spec hd hf R res oob
  obtain ⟨q', a', b', hq', hs'⟩ := base_spec hd' hf' R res oob'
  rw [extract_false, hq] at ho
  rw [extract_false, hq'] at ho'
  rw [← Option.some.inj ho, ← Option.some.inj ho']
  have hv' : InBounds d' (v + off) := inB_iff_spec.mp (placed_inB hp (inB_iff_spec.mpr hv))
  have hb' := hs'.ha
  rw [filled_enlarged hp hsame hnew] at hb'
  have hmem : p ∈ d.all.filter f := by
    rw [List.mem_filter, Dims.mem_all, inB_iff_spec]; exact ⟨hpin, hpf⟩
  obtain ⟨r, hr⟩ : ∃ r, IsNearest (d.all.filter f) v r := by
    obtain ⟨r, hr, hmin⟩ := (d.all.filter f).toFinset.exists_min_image (sqDist v)
      ⟨p, List.mem_toFinset.mpr hmem⟩
    exact ⟨r, List.mem_toFinset.mp hr, fun c hc => hmin c (List.mem_toFinset.mpr hc)⟩
  have hshift : ∀ c, sqDist (v + off) (c + off) = sqDist v c := by
    intro c; simp only [sqDist, Idx.add_x, Idx.add_y, Idx.add_z]; ring
  have hlt : sqDist v r < 8 := lt_of_le_of_lt (hr.2 p hmem) h8
  obtain ⟨n, h1, h2⟩ := C10_exact_below_8_partial hd hs.ha hv (m := sqDist v r) ⟨⟨r, hr.1, rfl⟩, hr.2⟩ hlt
  obtain ⟨n', h1', h2'⟩ := C10_exact_below_8_partial hd' hb' hv' (m := sqDist v r)
    ⟨⟨r + off, List.mem_map_of_mem hr.1, hshift r⟩, by
      intro c hc
      rw [List.mem_map] at hc
      obtain ⟨c, hc, rfl⟩ := hc
      rw [hshift]; exact hr.2 c hc⟩ hlt
  have : n' = n := by omega
  rw [hs.val v hv, hs'.val _ hv', exactVal, exactVal, hsame v hv, hfree, h1, h1', this]
  simp

/-- The values stored for the squared distances 8 and 9 differ. -/
theorem stored_8_9 : ieee.r32 (scaled ieee 1 (some 8)) ≠ ieee.r32 (scaled ieee 1 (some 9)) := by
  obtain ⟨x, ex, _, hx⟩ := stored_accuracy FSdf.goodRes_ieee_one (by norm_num) (by norm_num) (n := 8) (by norm_num) (by norm_num)
  obtain ⟨y, ey, _, hy⟩ := stored_accuracy FSdf.goodRes_ieee_one (by norm_num) (by norm_num) (n := 9) (by norm_num) (by norm_num)
  rw [ex, ey]
  intro h
  have h' : x = y := by exact_mod_cast h
  have h8 : Real.sqrt ((8 : ℕ) : ℝ) ≤ 29 / 10 := by rw [Real.sqrt_le_iff]; norm_num
  have h80 : 0 ≤ Real.sqrt ((8 : ℕ) : ℝ) := Real.sqrt_nonneg _
  have h9 : Real.sqrt ((9 : ℕ) : ℝ) = 3 := by
    rw [show ((9 : ℕ) : ℝ) = 3 ^ 2 by norm_num]; exact Real.sqrt_sq (by norm_num)
  rw [h9, abs_le] at hy
  rw [abs_le] at hx
  have hr : relErr ≤ 1 / 100 := by unfold relErr; norm_num
  have e : relErr * (1 * Real.sqrt ((8 : ℕ) : ℝ)) ≤ 1 / 100 * (1 * (29 / 10)) :=
    mul_le_mul hr (by linarith) (by linarith) (by norm_num)
  have h1 := hx.2
  have h2 := hy.1
  generalize Real.sqrt ((8 : ℕ) : ℝ) = t at h8 e h1
  linarith only [h1, h2, h8, e, hr, h']

/-- C135 in full, for IEEE arithmetic. -/
def C135Statement : Prop := ∀ (res : ℝ) (d d' : Dims) (off : Idx) (fill fill' : Idx → Option Bool) (f f' : Idx → Bool)
    (oob : FVal) (o o' : Out) (v : Idx), GoodRes ieee res → SmallGrid d' → Answers d fill f → Answers d' fill' f' →
    EnlargedFree d d' off f f' → extract ieee (res, res, res) d fill oob false = some o →
    extract ieee (res, res, res) d' fill' oob false = some o' → InBounds d v → f v = false →
    o'.sdf.get (v + off) = o.sdf.get v

/-- The filled cells of the counterexample. -/
def exEnlPts : List Idx := [⟨0, 0, 0⟩, ⟨0, 3, 0⟩, ⟨1, 0, 3⟩, ⟨1, 1, 1⟩, ⟨1, 2, 0⟩]

def exEnlFill (i : Idx) : Bool := decide (i ∈ exEnlPts)

theorem exEnl_enlarged : EnlargedFree ⟨2, 4, 4⟩ ⟨3, 4, 4⟩ ⟨0, 0, 0⟩ exEnlFill exEnlFill := by
  have hsub : ∀ w : Idx, w - ⟨0, 0, 0⟩ = w := by intro w; ext <;> simp
  have hadd : ∀ w : Idx, w + ⟨0, 0, 0⟩ = w := by intro w; ext <;> simp
  refine ⟨by unfold PlacedIn; decide, fun v _ => by rw [hadd], fun w _ hout => ?_⟩
  rw [hsub] at hout
  by_contra hc
  rw [Bool.not_eq_false, exEnlFill, decide_eq_true_eq] at hc
  simp only [exEnlPts, List.mem_cons, List.not_mem_nil, or_false] at hc
  rcases hc with rfl | rfl | rfl | rfl | rfl <;> exact hout (by norm_num [InBounds])

/-- C135 fails: one more layer of free cells changes the stored distance of a free cell of a 2 x 4 x 4 map
(from 3 to sqrt 8, rounded). -/
theorem C135_false : ¬ C135Statement := by
  intro h
  have hs : SmallGrid ⟨2, 4, 4⟩ := by unfold SmallGrid; decide
  have hs' : SmallGrid ⟨3, 4, 4⟩ := by unfold SmallGrid; decide
  have ha : ∀ d, Answers d (fun i => some (exEnlFill i)) exEnlFill := fun d i _ => rfl
  have hv : InBounds ⟨2, 4, 4⟩ ⟨1, 3, 3⟩ := by norm_num [InBounds]
  have hv' : InBounds ⟨3, 4, 4⟩ ⟨1, 3, 3⟩ := by norm_num [InBounds]
  have hfree : exEnlFill ⟨1, 3, 3⟩ = false := by decide
  obtain ⟨q, a, b, hq, hb⟩ := base_spec hs (ha _) ieee 1 none
  obtain ⟨q', a', b', hq', hb'⟩ := base_spec hs' (ha _) ieee 1 none
  have key := h 1 ⟨2, 4, 4⟩ ⟨3, 4, 4⟩ ⟨0, 0, 0⟩ _ _ exEnlFill exEnlFill none q q' ⟨1, 3, 3⟩ FSdf.goodRes_ieee_one hs'
    (ha _) (ha _) exEnl_enlarged (by rw [extract_false, hq]) (by rw [extract_false, hq']) hv hfree
  have w : (build ⟨2, 4, 4⟩ (Dims.all ⟨2, 4, 4⟩ |>.filter exEnlFill)).map (fun s => reported s ⟨1, 3, 3⟩) =
      some (some 9) := by decide +kernel
  have w' : (build ⟨3, 4, 4⟩ (Dims.all ⟨3, 4, 4⟩ |>.filter exEnlFill)).map (fun s => reported s ⟨1, 3, 3⟩) =
      some (some 8) := by decide +kernel
  rw [hb.ha] at w
  rw [hb'.ha] at w'
  simp only [Option.map_some, Option.some.injEq] at w w'
  have e : (⟨1, 3, 3⟩ : Idx) + ⟨0, 0, 0⟩ = ⟨1, 3, 3⟩ := rfl
  rw [e, hb.val _ hv, hb'.val _ hv', exactVal, exactVal, hfree, w, w'] at key
  exact stored_8_9 (by simpa using key)

/-- The hypotheses of the partial theorems are met by a 2 x 2 x 1 map with one filled cell, put into the middle
of a 4 x 4 x 1 map. -/
example : SmallGrid ⟨4, 4, 1⟩ ∧ Flat ⟨4, 4, 1⟩ ∧
    EnlargedFree ⟨2, 2, 1⟩ ⟨4, 4, 1⟩ ⟨1, 1, 0⟩ (fun i => decide (i = ⟨0, 0, 0⟩)) (fun i => decide (i = ⟨1, 1, 0⟩)) ∧
    InBounds ⟨2, 2, 1⟩ ⟨1, 1, 0⟩ ∧ sqDist ⟨1, 1, 0⟩ ⟨0, 0, 0⟩ < 8 := by
  refine ⟨by unfold SmallGrid; decide, Or.inr (Or.inr rfl), ⟨by unfold PlacedIn; decide, fun v _ => ?_, fun w _ hout => ?_⟩,
    by norm_num [InBounds], by norm_num [sqDist]⟩
  · obtain ⟨x, y, z⟩ := v
    simp only [decide_eq_decide, Idx.mk.injEq]
    constructor
    · intro h
      have := congrArg Idx.x h; have := congrArg Idx.y h; have := congrArg Idx.z h
      simp only [Idx.add_x, Idx.add_y, Idx.add_z] at *
      omega
    · rintro ⟨rfl, rfl, rfl⟩; rfl
  · simp only [decide_eq_false_iff_not]
    rintro rfl
    exact hout (by norm_num [InBounds])

end Verif
