import Verif.Spec.Path
import Verif.Props.SlowChange

/-!
# C128: checking a path at waypoints

A planner asks for the distance at waypoints only. If every report is large enough for the spacing of the waypoints, no
point of the path between them is close to an obstacle.
-/

namespace Verif

open Spec SdfGen DField

namespace FSdf

open SignedDist

/-- On a line every point is at most half the length away from one of the ends. -/
theorem segment_near_end {a b p : V3 ℝ} (h : OnSegment a b p) :
    dist3 p a ≤ dist3 a b / 2 ∨ dist3 p b ≤ dist3 a b / 2 := by
  obtain ⟨t, t0, t1, rfl⟩ := h
  have ha : dist3 ⟨a.x + t * (b.x - a.x), a.y + t * (b.y - a.y), a.z + t * (b.z - a.z)⟩ a = t * dist3 a b := by
    unfold dist3
    have e : sqDist3 ⟨a.x + t * (b.x - a.x), a.y + t * (b.y - a.y), a.z + t * (b.z - a.z)⟩ a = t ^ 2 * sqDist3 a b := by
      unfold sqDist3; ring
    rw [e, Real.sqrt_mul (by positivity), Real.sqrt_sq t0]
  have hb : dist3 ⟨a.x + t * (b.x - a.x), a.y + t * (b.y - a.y), a.z + t * (b.z - a.z)⟩ b = (1 - t) * dist3 a b := by
    unfold dist3
    have e : sqDist3 ⟨a.x + t * (b.x - a.x), a.y + t * (b.y - a.y), a.z + t * (b.z - a.z)⟩ b =
        (1 - t) ^ 2 * sqDist3 a b := by
      unfold sqDist3; ring
    rw [e, Real.sqrt_mul (by positivity), Real.sqrt_sq (by linarith)]
  have n := dist3_nonneg a b
  rcases le_total t (1 / 2) with h | h
  · left; rw [ha]; nlinarith
  · right; rw [hb]; nlinarith

/-- Every point of a path is at most half the spacing away from a waypoint. -/
theorem path_near_waypoint {s : ℝ} (s0 : 0 ≤ s) : ∀ {ws : List (V3 ℝ)} {p : V3 ℝ}, Spaced s ws → OnPath ws p →
    ∃ w ∈ ws, dist3 p w ≤ s / 2
  | [], _, _, h => h.elim
  | [a], p, _, h => by
    have h : p = a := h
    exact ⟨a, by simp, by rw [h, dist3_self]; linarith⟩
  | a :: b :: l, p, hs, h => by
    have hs : dist3 a b ≤ s ∧ Spaced s (b :: l) := hs
    have h : OnSegment a b p ∨ OnPath (b :: l) p := h
    rcases h with h | h
    · rcases segment_near_end h with h | h
      · exact ⟨a, by simp, by linarith [hs.1]⟩
      · exact ⟨b, by simp, by linarith [hs.1]⟩
    · obtain ⟨w, hw, h⟩ := path_near_waypoint s0 hs.2 h
      exact ⟨w, List.mem_cons_of_mem _ hw, h⟩

/-- C128, one query: in a field that passes the check of C123 a reported distance clears a whole ball around the query. -/
theorem C128_ball {res : ℝ} (hres : GoodRes ieee res) (hlo : 1 / 2 ^ 100 ≤ res) (hhi : res ≤ 2 ^ 60)
    {d : Dims} {N : ℕ} (hN : N ≤ 2 ^ 14) (hdim : d.nx ≤ N ∧ d.ny ≤ N ∧ d.nz ≤ N)
    {fill : Idx → Option Bool} {f : Idx → Bool} (hf : Answers d fill f) (hb : BothClasses d f)
    {oob : FVal} {o : Out} (ho : extract ieee (res, res, res) d fill oob false = some o) {g : Idx → ℝ}
    (hg : Checked d res o.sdf.get g) {A B : Aff ℝ}
    (hA : NearRotation A) (hB : isoInverse ieee A = (B.rx, B.ry, B.rz, loc B.t)) {M : ℝ} (hNM : (N : ℝ) ≤ M)
    (hM : M * N ≤ 2 ^ 29) (hT : OriginWithin A (M * res)) {c : V3 ℝ} (hc : WellInside d res c) {y : ℝ}
    (hy : (FSdf.mk o.sdf res).estimate ieee (affApp ieee B)
      (fun p => byAxis (axisCell ieee res) (affApp ieee B p)) (loc (A.app id c)) = some (real y, true))
    {p r : V3 ℝ} (hr : Region d res f true r) :
    y ≤ 7 / 4 * (dist3 p (A.app id c) + dist3 p (A.app id r)) + 8 / 3 * res := by
  obtain ⟨y', e, h⟩ := C123_clearance hres hlo hhi hN hdim hf hb ho hg hA hB hNM hM hT hc
  rw [hy] at e
  have e' : y = y' := by simpa [real] using e
  subst e'
  by_contra hlt
  push Not at hlt
  have n1 := dist3_nonneg p (A.app id c)
  have n2 := dist3_nonneg p (A.app id r)
  have tri := dist3_tri (A.app id c) p (A.app id r)
  rw [dist3_comm (A.app id c) p] at tri
  have := h ((y - 8 / 3 * res) * (4 / 7)) (by linarith) (by linarith) r hr
  linarith

/-- C128: in a field that passes the check of C123, waypoints at most `2 * δ` apart whose reports are all at least
`7/4 * (ρ + δ)` and 8/3 cells make a path that stays at least `ρ` away from every point of an obstacle. -/
theorem C128_path {res : ℝ} (hres : GoodRes ieee res) (hlo : 1 / 2 ^ 100 ≤ res) (hhi : res ≤ 2 ^ 60)
    {d : Dims} {N : ℕ} (hN : N ≤ 2 ^ 14) (hdim : d.nx ≤ N ∧ d.ny ≤ N ∧ d.nz ≤ N)
    {fill : Idx → Option Bool} {f : Idx → Bool} (hf : Answers d fill f) (hb : BothClasses d f)
    {oob : FVal} {o : Out} (ho : extract ieee (res, res, res) d fill oob false = some o) {g : Idx → ℝ}
    (hg : Checked d res o.sdf.get g) {A B : Aff ℝ}
    (hA : NearRotation A) (hB : isoInverse ieee A = (B.rx, B.ry, B.rz, loc B.t)) {M : ℝ} (hNM : (N : ℝ) ≤ M)
    (hM : M * N ≤ 2 ^ 29) (hT : OriginWithin A (M * res)) {cs : List (V3 ℝ)} (hc : ∀ c ∈ cs, WellInside d res c)
    {ρ δ : ℝ} (hδ : 0 ≤ δ) (hs : Spaced (2 * δ) (cs.map (A.app id)))
    (hask : ∀ w ∈ cs.map (A.app id), ∃ y : ℝ, (FSdf.mk o.sdf res).estimate ieee (affApp ieee B)
      (fun p => byAxis (axisCell ieee res) (affApp ieee B p)) (loc w) = some (real y, true) ∧
        7 / 4 * (ρ + δ) + 8 / 3 * res ≤ y)
    {p r : V3 ℝ} (hp : OnPath (cs.map (A.app id)) p) (hr : Region d res f true r) : ρ ≤ dist3 p (A.app id r) := by
  obtain ⟨w, hw, hn⟩ := path_near_waypoint (by linarith) hs hp
  obtain ⟨y, ey, hy⟩ := hask w hw
  obtain ⟨c, hcs, rfl⟩ := List.mem_map.mp hw
  have := C128_ball hres hlo hhi hN hdim hf hb ho hg hA hB hNM hM hT (hc c hcs) ey (p := p) hr
  linarith

/-- C128, the other direction: in such a field the check accepts waypoints that are clear of the obstacles by a little
more. -/
theorem C128_accepts {res : ℝ} (hres : GoodRes ieee res) (hlo : 1 / 2 ^ 100 ≤ res) (hhi : res ≤ 2 ^ 60)
    {d : Dims} {N : ℕ} (hN : N ≤ 2 ^ 14) (hdim : d.nx ≤ N ∧ d.ny ≤ N ∧ d.nz ≤ N)
    {fill : Idx → Option Bool} {f : Idx → Bool} (hf : Answers d fill f) (hb : BothClasses d f)
    {oob : FVal} {o : Out} (ho : extract ieee (res, res, res) d fill oob false = some o) {g : Idx → ℝ}
    (hg : Checked d res o.sdf.get g) {A B : Aff ℝ}
    (hA : NearRotation A) (hB : isoInverse ieee A = (B.rx, B.ry, B.rz, loc B.t)) {M : ℝ} (hNM : (N : ℝ) ≤ M)
    (hM : M * N ≤ 2 ^ 29) (hT : OriginWithin A (M * res)) {cs : List (V3 ℝ)} (hc : ∀ c ∈ cs, WellInside d res c)
    {m : ℝ} (hm : 0 ≤ m)
    (hclear : ∀ w ∈ cs.map (A.app id), ∀ r, Region d res f true r → m + 4 / 3 * res ≤ dist3 w (A.app id r)) :
    ∀ w ∈ cs.map (A.app id), ∃ y : ℝ, (FSdf.mk o.sdf res).estimate ieee (affApp ieee B)
      (fun p => byAxis (axisCell ieee res) (affApp ieee B p)) (loc w) = some (real y, true) ∧ m ≤ y := by
  intro w hw
  obtain ⟨c, hcs, rfl⟩ := List.mem_map.mp hw
  have r0 := hres.1
  obtain ⟨y, sw, ey, hsw, h1, -, -⟩ := C123_world hres hlo hhi hN hdim hf hb ho hg hA hB hNM hM hT (hc c hcs)
  refine ⟨y, ey, ?_⟩
  have hin : ∃ b, Region d res f b c := by
    have hM2 : M ≤ 2 ^ 29 := by
      have N1 : (1 : ℝ) ≤ N := by
        obtain ⟨hx, -, -⟩ := both_pos hb
        have : 1 ≤ N := by omega
        exact_mod_cast this
      exact le_trans (le_mul_of_one_le_right (by linarith) N1) hM
    exact (world_query hA hlo hhi hM2 hT hN hNM hdim hb (hc c hcs) hB).2.2.2.1
  have hge : m + 4 / 3 * res ≤ sw := by
    rcases lt_or_ge 0 sw with h | h
    · obtain ⟨⟨r, hr, e⟩, -⟩ := hsw.outside h.le
      have := hclear _ hw r hr
      linarith
    · exfalso
      obtain ⟨b, hb⟩ := hin
      cases b with
      | true =>
        have := hclear _ hw c hb
        rw [dist3_self] at this
        linarith
      | false =>
        have h0 := (hsw.inside h).2 c hb
        rw [dist3_self] at h0
        have : sw = 0 := by linarith
        obtain ⟨⟨r, hr, e⟩, -⟩ := hsw.outside (by linarith)
        have := hclear _ hw r hr
        linarith
  have := (h1 (by linarith)).1
  linarith

/-- C128 for the maps of C91, without any check and with a smaller margin: the reports are at least `ρ + δ` and 4/3
cells. -/
theorem C128_product {res : ℝ} (hres : GoodRes ieee res) (hlo : 1 / 2 ^ 100 ≤ res) (hhi : res ≤ 2 ^ 60)
    {d : Dims} {N : ℕ} (hN : N ≤ 2 ^ 14) (hdim : d.nx ≤ N ∧ d.ny ≤ N ∧ d.nz ≤ N) {fill : Idx → Option Bool}
    {f : Idx → Bool} (hf : Answers d fill f) (hb : BothClasses d f) {X Y Z : ℤ → Prop}
    (hprod : IsProduct d (fun i => f i = true) X Y Z ∨ IsProduct d (fun i => f i = false) X Y Z)
    {oob : FVal} {o : Out} (ho : extract ieee (res, res, res) d fill oob false = some o) {A B : Aff ℝ}
    (hA : NearRotation A) (hB : isoInverse ieee A = (B.rx, B.ry, B.rz, loc B.t)) {M : ℝ} (hNM : (N : ℝ) ≤ M)
    (hM : M ≤ 2 ^ 29) (hT : OriginWithin A (M * res)) {cs : List (V3 ℝ)} (hc : ∀ c ∈ cs, WellInside d res c)
    {ρ δ : ℝ} (hρ : 0 ≤ ρ) (hδ : 0 ≤ δ) (hs : Spaced (2 * δ) (cs.map (A.app id)))
    (hask : ∀ w ∈ cs.map (A.app id), ∃ y : ℝ, (FSdf.mk o.sdf res).estimate ieee (affApp ieee B)
      (fun p => byAxis (axisCell ieee res) (affApp ieee B p)) (loc w) = some (real y, true) ∧
        ρ + δ + 4 / 3 * res ≤ y)
    {p r : V3 ℝ} (hp : OnPath (cs.map (A.app id)) p) (hr : Region d res f true r) : ρ ≤ dist3 p (A.app id r) := by
  obtain ⟨w, hw, hn⟩ := path_near_waypoint (by linarith) hs hp
  obtain ⟨y, ey, hy⟩ := hask w hw
  obtain ⟨c, hcs, rfl⟩ := List.mem_map.mp hw
  obtain ⟨y', ey', h, -⟩ := C118_clearance hres hlo hhi hN hdim hf hb hprod ho hA hB hNM hM hT (hc c hcs)
  rw [ey] at ey'
  have e' : y = y' := by simpa [real] using ey'
  subst e'
  have := h (ρ + δ) (by linarith) hy r hr
  have tri := dist3_tri (A.app id c) p (A.app id r)
  rw [dist3_comm (A.app id c) p] at tri
  linarith

/-- A map of 14 x 4 x 4 cells with a wall of filled cells at one end. -/
def exWall (i : Idx) : Bool := decide (i.x = 0)

/-- Two waypoints eleven cells away from the wall, in a turned and shifted map of cells of size 1/4: the check accepts
them for a clearance of 1/2, and the path between them has it. -/
example : ∃ (o : Out) (B : Aff ℝ), extract ieee ((1 / 4 : ℝ), (1 / 4 : ℝ), (1 / 4 : ℝ)) ⟨14, 4, 4⟩
      (fun i => some (exWall i)) (some ⊤) false = some o ∧
    (∀ w ∈ [(⟨3, 1 / 2, 1 / 2⟩ : V3 ℝ), ⟨3, 5 / 8, 1 / 2⟩].map (exPose.app id), ∃ y : ℝ,
      (FSdf.mk o.sdf (1 / 4)).estimate ieee (affApp ieee B)
        (fun p => byAxis (axisCell ieee (1 / 4)) (affApp ieee B p)) (loc w) = some (real y, true) ∧
      7 / 4 * (1 / 2 + 1 / 10) + 8 / 3 * (1 / 4) ≤ y) ∧
    ∀ p r, OnPath ([(⟨3, 1 / 2, 1 / 2⟩ : V3 ℝ), ⟨3, 5 / 8, 1 / 2⟩].map (exPose.app id)) p →
      Region ⟨14, 4, 4⟩ (1 / 4) exWall true r → 1 / 2 ≤ dist3 p (exPose.app id r) := by
  have hd : SmallGrid ⟨14, 4, 4⟩ := by unfold SmallGrid; decide
  have ans : Answers ⟨14, 4, 4⟩ (fun i => some (exWall i)) exWall := fun _ _ => rfl
  have both : BothClasses ⟨14, 4, 4⟩ exWall :=
    ⟨⟨⟨0, 0, 0⟩, by norm_num [InBounds], rfl⟩, ⟨1, 0, 0⟩, by norm_num [InBounds], rfl⟩
  obtain ⟨o, _, _, ho, _⟩ := base_spec hd ans ieee (1 / 4) (some ⊤)
  rw [← extract_false] at ho
  obtain ⟨B, hB, -⟩ := C112_inverse exPose_rotation
    ⟨exPose_origin.1.trans (by norm_num), exPose_origin.2.1.trans (by norm_num), exPose_origin.2.2.trans (by norm_num)⟩
  obtain ⟨g, hg⟩ := C123_product quarter_good (by norm_num) (by norm_num) (N := 14) (by norm_num) (by decide) ans
    both (A := fun x => x = 0) (B := fun _ => True) (C := fun _ => True) (Or.inl fun i _ => by simp [exWall]) ho
  have hc : ∀ c ∈ [(⟨3, 1 / 2, 1 / 2⟩ : V3 ℝ), ⟨3, 5 / 8, 1 / 2⟩], WellInside ⟨14, 4, 4⟩ (1 / 4) c := by
    intro c hc
    simp only [List.mem_cons, List.not_mem_nil, or_false] at hc
    rcases hc with rfl | rfl <;> norm_num [WellInside, WellInner]
  have hask := C128_accepts quarter_good (by norm_num) (by norm_num) (N := 14) (by norm_num) (by decide) ans both ho hg
    exPose_rotation hB (M := 2 ^ 25) (by norm_num) (by norm_num)
    ⟨by norm_num [exPose, abs_le], by norm_num [exPose, abs_le], by norm_num [exPose, abs_le]⟩ hc
    (m := 7 / 4 * (1 / 2 + 1 / 10) + 8 / 3 * (1 / 4)) (by norm_num) (by
      intro w hw r hr
      obtain ⟨c, hcs, rfl⟩ := List.mem_map.mp hw
      obtain ⟨i, -, hi, ⟨-, rx⟩, -, -⟩ := hr
      have hi : i.x = 0 := by simpa [exWall] using hi
      have cx : c.x = 3 := by
        simp only [List.mem_cons, List.not_mem_nil, or_false] at hcs
        rcases hcs with rfl | rfl <;> rfl
      have hd : 11 / 4 ≤ dist3 c r := by
        unfold dist3
        refine Real.le_sqrt_of_sq_le ?_
        unfold sqDist3
        rw [hi] at rx
        push_cast at rx
        rw [cx]
        nlinarith [sq_nonneg (c.y - r.y), sq_nonneg (c.z - r.z)]
      have := (near_isometry exPose_rotation c r).2
      linarith)
  refine ⟨o, B, ho, hask, fun p r hp hr => ?_⟩
  refine C128_path quarter_good (by norm_num) (by norm_num) (N := 14) (by norm_num) (by decide) ans both ho hg
    exPose_rotation hB (M := 2 ^ 25) (by norm_num) (by norm_num)
    ⟨by norm_num [exPose, abs_le], by norm_num [exPose, abs_le], by norm_num [exPose, abs_le]⟩ hc (δ := 1 / 10)
    (by norm_num) ⟨?_, trivial⟩ hask hp hr
  have h1 : dist3 (⟨3, 1 / 2, 1 / 2⟩ : V3 ℝ) ⟨3, 5 / 8, 1 / 2⟩ ≤ 1 / 8 := by
    unfold dist3
    exact Real.sqrt_le_iff.mpr ⟨by norm_num, by norm_num [sqDist3]⟩
  have := (near_isometry exPose_rotation (⟨3, 1 / 2, 1 / 2⟩ : V3 ℝ) ⟨3, 5 / 8, 1 / 2⟩).1
  linarith

end FSdf

end Verif
