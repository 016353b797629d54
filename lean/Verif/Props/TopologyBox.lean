import Verif.Props.Topology
import Verif.Props.CollisionMap

/-!
# Properties of holes and voids (C37, C57)
-/

namespace Verif

open Spec Relation

namespace Topo

theorem mem_addKey {l : List Idx} {v w : Idx} : w ∈ addKey l v ↔ w ∈ l ∨ w = v := by
  unfold addKey
  split
  · constructor
    · exact .inl
    · rintro (h | rfl) <;> assumption
  · simp

theorem nodup_addKey {l : List Idx} {v : Idx} (h : l.Nodup) : (addKey l v).Nodup := by
  unfold addKey
  split
  · exact h
  · rename_i hv
    refine List.nodup_append.mpr ⟨h, by simp, ?_⟩
    intro a ha b hb hab
    simp only [List.mem_singleton] at hb
    subst hb; subst hab; exact hv ha

theorem mem_foldl_addKey {ws l : List Idx} {w : Idx} : w ∈ ws.foldl addKey l ↔ w ∈ l ∨ w ∈ ws := by
  induction ws generalizing l with
  | nil => simp
  | cons v ws ih => rw [List.foldl_cons, ih, mem_addKey]; simp only [List.mem_cons]; tauto

theorem nodup_foldl_addKey {ws l : List Idx} (h : l.Nodup) : (ws.foldl addKey l).Nodup := by
  induction ws generalizing l with
  | nil => exact h
  | cons v ws ih => exact ih (nodup_addKey h)

theorem surfaceVertices_aux (k : Int) (comp : Idx → Int) (s : List Idx) (acc : List Idx)
    (hacc : acc.Nodup) :
    (s.foldl (fun acc i => (voxelVertices k comp i).foldl addKey acc) acc).Nodup ∧
    ∀ v, v ∈ s.foldl (fun acc i => (voxelVertices k comp i).foldl addKey acc) acc ↔
      v ∈ acc ∨ ∃ i ∈ s, v ∈ voxelVertices k comp i := by
  induction s generalizing acc with
  | nil => simpa using hacc
  | cons i s ih =>
    obtain ⟨h1, h2⟩ := ih ((voxelVertices k comp i).foldl addKey acc) (nodup_foldl_addKey hacc)
    refine ⟨h1, fun v => ?_⟩
    rw [List.foldl_cons, h2, mem_foldl_addKey]
    simp only [List.mem_cons, exists_eq_or_imp]
    tauto

theorem nodup_surfaceVertices (k : Int) (comp : Idx → Int) (s : List Idx) :
    (surfaceVertices k comp s).Nodup := (surfaceVertices_aux k comp s [] (by simp)).1

theorem mem_surfaceVertices (k : Int) (comp : Idx → Int) (s : List Idx) (v : Idx) :
    v ∈ surfaceVertices k comp s ↔ ∃ i ∈ s, v ∈ voxelVertices k comp i := by
  have := (surfaceVertices_aux k comp s [] (by simp)).2 v
  simpa [surfaceVertices] using this

/-- The vertex map built from a list of vertices. -/
def vmap (k : Int) (comp : Idx → Int) (vs : List Idx) : List (Idx × UInt8) :=
  vs.map fun v => (v, packBits (edgeFlags k comp v))

theorem vmap_keys (k : Int) (comp : Idx → Int) (vs : List Idx) :
    (vmap k comp vs).map Prod.fst = vs := by
  unfold vmap
  rw [List.map_map]
  conv_rhs => rw [← List.map_id vs]
  rfl

theorem packBits_bit : ∀ (f0 f1 f2 f3 f4 f5 : Bool) (b : Fin 6),
    (packBits [f0, f1, f2, f3, f4, f5]).toNat.testBit b.val = [f0, f1, f2, f3, f4, f5][b.val]?.getD false := by
  decide +kernel

theorem edgeFlags_bit (k : Int) (comp : Idx → Int) (v : Idx) (b : Nat) (hb : b < 6) :
    (packBits (edgeFlags k comp v)).toNat.testBit b = (edgeFlags k comp v)[b]?.getD false :=
  packBits_bit _ _ _ _ _ _ ⟨b, hb⟩

theorem joined_vmap (k : Int) (comp : Idx → Int) (vs : List Idx) (v w : Idx) :
    Joined (vmap k comp vs) v w ↔
      v ∈ vs ∧ ∃ b, b < 6 ∧ (edgeFlags k comp v)[b]?.getD false = true ∧ w = bitTarget v b := by
  unfold Joined vmap
  simp only [List.mem_map, Prod.mk.injEq]
  constructor
  · rintro ⟨c, b, ⟨u, hu, rfl, rfl⟩, hb, ht, rfl⟩
    exact ⟨hu, b, hb, by rw [← edgeFlags_bit _ _ _ _ hb]; exact ht, rfl⟩
  · rintro ⟨hv, b, hb, ht, rfl⟩
    exact ⟨_, b, ⟨v, hv, rfl, rfl⟩, hb, by rw [edgeFlags_bit _ _ _ _ hb]; exact ht, rfl⟩

/-- The direction opposite to `b`. -/
def opp : Nat → Nat
  | 0 => 1
  | 1 => 0
  | 2 => 3
  | 3 => 2
  | 4 => 5
  | _ => 4

theorem bitTarget_opp (v : Idx) (b : Nat) (hb : b < 6) : bitTarget (bitTarget v b) (opp b) = v := by
  match b, hb with
  | 0, _ => simp [bitTarget, opp]
  | 1, _ => simp [bitTarget, opp]
  | 2, _ => simp [bitTarget, opp]
  | 3, _ => simp [bitTarget, opp]
  | 4, _ => simp [bitTarget, opp]
  | 5, _ => simp [bitTarget, opp]

theorem edgeFlags_opp (k : Int) (comp : Idx → Int) (v : Idx) (b : Nat) (hb : b < 6) :
    (edgeFlags k comp (bitTarget v b))[opp b]?.getD false = (edgeFlags k comp v)[b]?.getD false := by
  match b, hb with
  | 0, _ => simp [bitTarget, opp, edgeFlags]
  | 1, _ => simp [bitTarget, opp, edgeFlags]
  | 2, _ => simp [bitTarget, opp, edgeFlags]
  | 3, _ => simp [bitTarget, opp, edgeFlags]
  | 4, _ => simp [bitTarget, opp, edgeFlags]
  | 5, _ => simp [bitTarget, opp, edgeFlags]

/-- An edge depends only on the four voxels around it, so both ends record it. -/
theorem symmetric_vmap (k : Int) (comp : Idx → Int) (vs : List Idx) : SymmetricEdges (vmap k comp vs) := by
  intro v w h hw
  rw [vmap_keys] at hw
  rw [joined_vmap] at h ⊢
  obtain ⟨-, b, hb, ht, rfl⟩ := h
  refine ⟨hw, opp b, ?_, ?_, (bitTarget_opp v b hb).symm⟩
  · unfold opp; split <;> omega
  · rw [edgeFlags_opp _ _ _ _ hb]; exact ht

/-- The result as a function of the vertex set. -/
theorem computeHoles_eq (ord : List Idx → List Idx) (ord' : List (Idx × UInt8) → List (Idx × UInt8))
    (ho : ∀ l, (ord l).Perm l) (ho' : ∀ l, (ord' l).Perm l) (k : Int) (s : List Idx)
    (comp : Idx → Int) {vs : List Idx} (hvs : vs.Perm (surfaceVertices k comp s)) :
    computeHoles ord ord' k s comp =
      match connectivity (vmap k comp vs) with
      | .throw => .throw
      | .running => .running
      | .done n =>
        .done (1 + (((vs.filter fun v => edgeCount k comp v = 5).length : Int)
          + 2 * (vs.filter fun v => edgeCount k comp v = 6).length
          - (vs.filter fun v => edgeCount k comp v = 3).length).tdiv 8 + ((n : Int) - 1), (n : Int) - 1) := by
  have hp : (ord (surfaceVertices k comp s)).Perm vs := (ho _).trans hvs.symm
  have hnd : vs.Nodup := hvs.nodup_iff.mpr (nodup_surfaceVertices k comp s)
  have hc : connectivity (ord' (vmap k comp (ord (surfaceVertices k comp s)))) =
      connectivity (vmap k comp vs) := by
    symm
    apply C36_any_order
    · exact ((hp.map _).symm).trans (ho' _).symm
    · rw [vmap_keys]; exact hnd
    · exact symmetric_vmap k comp vs
  have f3 := (hp.filter fun v => edgeCount k comp v = 3).length_eq
  have f5 := (hp.filter fun v => edgeCount k comp v = 5).length_eq
  have f6 := (hp.filter fun v => edgeCount k comp v = 6).length_eq
  unfold computeHoles
  change (match connectivity (ord' (vmap k comp (ord (surfaceVertices k comp s)))) with
      | .throw => _ | .running => _ | .done n => _) = _
  rw [hc]
  simp only [f3, f5, f6]

end Topo

/-- C57.  The numbers of holes and voids of a component (or the exception) do not depend on the order
in which any of the hash maps is iterated, nor on the order of the surface cells; the call
terminates for every component. -/
theorem C57_order_independent (ord₁ ord₂ : List Idx → List Idx)
    (ord₁' ord₂' : List (Idx × UInt8) → List (Idx × UInt8))
    (h1 : ∀ l, (ord₁ l).Perm l) (h1' : ∀ l, (ord₁' l).Perm l)
    (h2 : ∀ l, (ord₂ l).Perm l) (h2' : ∀ l, (ord₂' l).Perm l)
    (k : Int) (comp : Idx → Int) (s₁ s₂ : List Idx) (hs : s₁.Perm s₂) :
    Topo.computeHoles ord₁ ord₁' k s₁ comp = Topo.computeHoles ord₂ ord₂' k s₂ comp ∧
    Topo.computeHoles ord₁ ord₁' k s₁ comp ≠ .running := by
  have hp : (Topo.surfaceVertices k comp s₁).Perm (Topo.surfaceVertices k comp s₂) := by
    rw [List.perm_ext_iff_of_nodup (Topo.nodup_surfaceVertices ..) (Topo.nodup_surfaceVertices ..)]
    intro v
    rw [Topo.mem_surfaceVertices, Topo.mem_surfaceVertices]
    simp only [hs.mem_iff]
  rw [Topo.computeHoles_eq ord₁ ord₁' h1 h1' k s₁ comp (List.Perm.refl _),
    Topo.computeHoles_eq ord₂ ord₂' h2 h2' k s₂ comp hp]
  refine ⟨rfl, ?_⟩
  obtain ⟨ht, hd⟩ := C36_connectivity (Topo.vmap k comp (Topo.surfaceVertices k comp s₁))
    (by rw [Topo.vmap_keys]; exact Topo.nodup_surfaceVertices ..) (Topo.symmetric_vmap _ _ _)
  by_cases h : Dangling (Topo.vmap k comp (Topo.surfaceVertices k comp s₁))
  · rw [ht h]; simp
  · obtain ⟨n, hn, -⟩ := hd h
    rw [hn]; simp

namespace Spec

/-- The cells of a solid box of `a × b × c` cells with lowest cell `o`. -/
def InBox (o : Idx) (a b c : Nat) (i : Idx) : Prop :=
  (o.x ≤ i.x ∧ i.x < o.x + a) ∧ (o.y ≤ i.y ∧ i.y < o.y + b) ∧ (o.z ≤ i.z ∧ i.z < o.z + c)

/-- The lattice points of the closed box. -/
def InClosedBox (o : Idx) (a b c : Nat) (i : Idx) : Prop :=
  (o.x ≤ i.x ∧ i.x ≤ o.x + a) ∧ (o.y ≤ i.y ∧ i.y ≤ o.y + b) ∧ (o.z ≤ i.z ∧ i.z ≤ o.z + c)

end Spec

namespace Topo

/-- `exposed` in terms of membership. -/
def ex (p q r s : Bool) : Bool := (p || q || r || s) && !(p && q && r && s)

theorem exposed_eq (k a b c d : Int) :
    exposed k a b c d = ex (decide (k = a)) (decide (k = b)) (decide (k = c)) (decide (k = d)) := by
  unfold exposed ex
  by_cases h1 : k = a <;> by_cases h2 : k = b <;> by_cases h3 : k = c <;> by_cases h4 : k = d <;>
    simp [h1, h2, h3, h4]
  all_goals (subst_vars; simp_all)

/-- The six flags of a vertex of a box; `l` and `r` say per axis whether the voxels below and above
are in range. -/
def boxFlags (lx rx ly ry lz rz : Bool) : List Bool :=
  let p (a b c : Bool) := a && b && c
  [ex (p lx ly lz) (p lx ry lz) (p rx ly lz) (p rx ry lz),
   ex (p lx ly rz) (p lx ry rz) (p rx ly rz) (p rx ry rz),
   ex (p lx ly lz) (p lx ly rz) (p rx ly lz) (p rx ly rz),
   ex (p lx ry lz) (p lx ry rz) (p rx ry lz) (p rx ry rz),
   ex (p lx ly lz) (p lx ly rz) (p lx ry lz) (p lx ry rz),
   ex (p rx ly lz) (p rx ly rz) (p rx ry lz) (p rx ry rz)]

section Box

variable {k : Int} {comp : Idx → Int} {o : Idx} {a b c : Nat}

theorem edgeFlags_box (hcomp : ∀ i, comp i = k ↔ InBox o a b c i) (v : Idx) :
    edgeFlags k comp v = boxFlags
      (decide (o.x ≤ v.x - 1 ∧ v.x - 1 < o.x + a)) (decide (o.x ≤ v.x ∧ v.x < o.x + a))
      (decide (o.y ≤ v.y - 1 ∧ v.y - 1 < o.y + b)) (decide (o.y ≤ v.y ∧ v.y < o.y + b))
      (decide (o.z ≤ v.z - 1 ∧ v.z - 1 < o.z + c)) (decide (o.z ≤ v.z ∧ v.z < o.z + c)) := by
  have h : ∀ x y z : Int, decide (k = comp ⟨x, y, z⟩) =
      (decide (o.x ≤ x ∧ x < o.x + a) && decide (o.y ≤ y ∧ y < o.y + b) && decide (o.z ≤ z ∧ z < o.z + c)) := by
    intro x y z
    rw [← Bool.decide_and, ← Bool.decide_and]
    apply decide_eq_decide.mpr
    rw [eq_comm, hcomp]
    unfold InBox
    tauto
  unfold edgeFlags boxFlags
  simp only [exposed_eq, h, add_zero]

theorem count_boxFlags : ∀ lx rx ly ry lz rz : Bool, (lx || rx) = true → (ly || ry) = true →
    (lz || rz) = true →
    ((boxFlags lx rx ly ry lz rz).count true ≠ 5 ∧ (boxFlags lx rx ly ry lz rz).count true ≠ 6 ∧
     ((boxFlags lx rx ly ry lz rz).count true = 3 ↔ (lx ≠ rx ∧ ly ≠ ry ∧ lz ≠ rz))) := by
  decide +kernel

/-- The corners of the box. -/
def corners (o : Idx) (a b c : Nat) : List Idx :=
  [⟨o.x, o.y, o.z⟩, ⟨o.x, o.y, o.z + c⟩, ⟨o.x, o.y + b, o.z⟩, ⟨o.x, o.y + b, o.z + c⟩,
   ⟨o.x + a, o.y, o.z⟩, ⟨o.x + a, o.y, o.z + c⟩, ⟨o.x + a, o.y + b, o.z⟩, ⟨o.x + a, o.y + b, o.z + c⟩]

theorem edgeCount_box (hcomp : ∀ i, comp i = k ↔ InBox o a b c i) (ha : 1 ≤ a) (hb : 1 ≤ b) (hc : 1 ≤ c)
    (v : Idx) (hv : InClosedBox o a b c v) :
    edgeCount k comp v ≠ 5 ∧ edgeCount k comp v ≠ 6 ∧ (edgeCount k comp v = 3 ↔ v ∈ corners o a b c) := by
  unfold edgeCount
  rw [edgeFlags_box hcomp]
  unfold InClosedBox at hv
  obtain ⟨h5, h6, h3⟩ := count_boxFlags
    (decide (o.x ≤ v.x - 1 ∧ v.x - 1 < o.x + a)) (decide (o.x ≤ v.x ∧ v.x < o.x + a))
    (decide (o.y ≤ v.y - 1 ∧ v.y - 1 < o.y + b)) (decide (o.y ≤ v.y ∧ v.y < o.y + b))
    (decide (o.z ≤ v.z - 1 ∧ v.z - 1 < o.z + c)) (decide (o.z ≤ v.z ∧ v.z < o.z + c))
    (by simp only [Bool.or_eq_true, decide_eq_true_eq]; omega)
    (by simp only [Bool.or_eq_true, decide_eq_true_eq]; omega)
    (by simp only [Bool.or_eq_true, decide_eq_true_eq]; omega)
  refine ⟨h5, h6, h3.trans ?_⟩
  have key : ∀ (l x : Int) (n : Nat), 1 ≤ n → l ≤ x → x ≤ l + n →
      (decide (l ≤ x - 1 ∧ x - 1 < l + n) ≠ decide (l ≤ x ∧ x < l + n) ↔ x = l ∨ x = l + n) := by
    intro l x n hn h1 h2
    rw [Ne, decide_eq_decide]
    omega
  rw [key _ _ _ ha hv.1.1 hv.1.2, key _ _ _ hb hv.2.1.1 hv.2.1.2, key _ _ _ hc hv.2.2.1 hv.2.2.2]
  obtain ⟨x, y, z⟩ := v
  simp only [corners, List.mem_cons, List.not_mem_nil, or_false, Idx.mk.injEq]
  constructor
  · rintro ⟨h1 | h1, h2 | h2, h3 | h3⟩ <;> simp [h1, h2, h3]
  · rintro (h | h | h | h | h | h | h | h) <;> obtain ⟨h1, h2, h3⟩ := h <;> simp [h1, h2, h3]

theorem nodup_corners (ha : 1 ≤ a) (hb : 1 ≤ b) (hc : 1 ≤ c) : (corners o a b c).Nodup := by
  simp only [corners, List.nodup_cons, List.mem_cons, List.not_mem_nil, or_false, Idx.mk.injEq,
    not_false_eq_true, List.nodup_nil, and_true, true_and]
  omega

/-- Moving down along the three axes while one of the other coordinates is extreme. -/
theorem flag_z (hcomp : ∀ i, comp i = k ↔ InBox o a b c i) (v : Idx) (hv : InClosedBox o a b c v)
    (ha : 1 ≤ a) (hb : 1 ≤ b)
    (hz : o.z < v.z) (he : v.x = o.x ∨ v.x = o.x + a ∨ v.y = o.y ∨ v.y = o.y + b) :
    (edgeFlags k comp v)[0]?.getD false = true := by
  unfold InClosedBox at hv
  rw [edgeFlags_box hcomp]
  have e : decide (o.z ≤ v.z - 1 ∧ v.z - 1 < o.z + c) = true := by
    simp only [decide_eq_true_eq]; omega
  rw [e]
  have key : ∀ lx rx ly ry rz : Bool, (lx || rx) = true → (ly || ry) = true →
      (lx && rx && ly && ry) = false → (boxFlags lx rx ly ry true rz)[0]?.getD false = true := by
    decide +kernel
  apply key <;> simp only [Bool.or_eq_true, Bool.and_eq_false_iff, decide_eq_true_eq, decide_eq_false_iff_not] <;> omega

theorem flag_y (hcomp : ∀ i, comp i = k ↔ InBox o a b c i) (v : Idx) (hv : InClosedBox o a b c v)
    (ha : 1 ≤ a) (hc : 1 ≤ c)
    (hy : o.y < v.y) (he : v.x = o.x ∨ v.x = o.x + a ∨ v.z = o.z ∨ v.z = o.z + c) :
    (edgeFlags k comp v)[2]?.getD false = true := by
  unfold InClosedBox at hv
  rw [edgeFlags_box hcomp]
  have e : decide (o.y ≤ v.y - 1 ∧ v.y - 1 < o.y + b) = true := by
    simp only [decide_eq_true_eq]; omega
  rw [e]
  have key : ∀ lx rx ry lz rz : Bool, (lx || rx) = true → (lz || rz) = true →
      (lx && rx && lz && rz) = false → (boxFlags lx rx true ry lz rz)[2]?.getD false = true := by
    decide +kernel
  apply key <;> simp only [Bool.or_eq_true, Bool.and_eq_false_iff, decide_eq_true_eq, decide_eq_false_iff_not] <;> omega

theorem flag_x (hcomp : ∀ i, comp i = k ↔ InBox o a b c i) (v : Idx) (hv : InClosedBox o a b c v)
    (hb : 1 ≤ b) (hc : 1 ≤ c)
    (hx : o.x < v.x) (he : v.y = o.y ∨ v.y = o.y + b ∨ v.z = o.z ∨ v.z = o.z + c) :
    (edgeFlags k comp v)[4]?.getD false = true := by
  unfold InClosedBox at hv
  rw [edgeFlags_box hcomp]
  have e : decide (o.x ≤ v.x - 1 ∧ v.x - 1 < o.x + a) = true := by
    simp only [decide_eq_true_eq]; omega
  rw [e]
  have key : ∀ rx ly ry lz rz : Bool, (ly || ry) = true → (lz || rz) = true →
      (ly && ry && lz && rz) = false → (boxFlags true rx ly ry lz rz)[4]?.getD false = true := by
    decide +kernel
  apply key <;> simp only [Bool.or_eq_true, Bool.and_eq_false_iff, decide_eq_true_eq, decide_eq_false_iff_not] <;> omega

/-- A closed-box lattice point on the surface of the box. -/
def OnBox (o : Idx) (a b c : Nat) (v : Idx) : Prop :=
  InClosedBox o a b c v ∧
    (v.x = o.x ∨ v.x = o.x + a ∨ v.y = o.y ∨ v.y = o.y + b ∨ v.z = o.z ∨ v.z = o.z + c)

theorem down_z (hcomp : ∀ i, comp i = k ↔ InBox o a b c i) (ha : 1 ≤ a) (hb : 1 ≤ b)
    {vs : List Idx} (hvs : ∀ v, v ∈ vs ↔ OnBox o a b c v) (n : Nat) :
    ∀ v, OnBox o a b c v → v.z = o.z + n → (v.x = o.x ∨ v.x = o.x + a ∨ v.y = o.y ∨ v.y = o.y + b) →
      Connected (vmap k comp vs) v ⟨v.x, v.y, o.z⟩ := by
  induction n with
  | zero =>
    rintro ⟨x, y, z⟩ hv hz he
    simp only at hz; rw [show z = o.z by simpa using hz]; exact .refl
  | succ n ih =>
    rintro ⟨x, y, z⟩ hv hz he
    simp only at hz he
    have hw : OnBox o a b c ⟨x, y, z - 1⟩ := by
      unfold OnBox InClosedBox at hv ⊢; simp only at hv ⊢; omega
    have := ih ⟨x, y, z - 1⟩ hw (by simp only; omega) he
    refine ReflTransGen.head ?_ this
    rw [joined_vmap]
    exact ⟨(hvs _).mpr hv, 0, by omega, flag_z hcomp _ hv.1 ha hb (by simp only; omega) he, rfl⟩

theorem down_y (hcomp : ∀ i, comp i = k ↔ InBox o a b c i) (ha : 1 ≤ a) (hc : 1 ≤ c)
    {vs : List Idx} (hvs : ∀ v, v ∈ vs ↔ OnBox o a b c v) (n : Nat) :
    ∀ v, OnBox o a b c v → v.y = o.y + n → (v.x = o.x ∨ v.x = o.x + a ∨ v.z = o.z ∨ v.z = o.z + c) →
      Connected (vmap k comp vs) v ⟨v.x, o.y, v.z⟩ := by
  induction n with
  | zero =>
    rintro ⟨x, y, z⟩ hv hz he
    simp only at hz; rw [show y = o.y by simpa using hz]; exact .refl
  | succ n ih =>
    rintro ⟨x, y, z⟩ hv hz he
    simp only at hz he
    have hw : OnBox o a b c ⟨x, y - 1, z⟩ := by
      unfold OnBox InClosedBox at hv ⊢; simp only at hv ⊢; omega
    have := ih ⟨x, y - 1, z⟩ hw (by simp only; omega) he
    refine ReflTransGen.head ?_ this
    rw [joined_vmap]
    exact ⟨(hvs _).mpr hv, 2, by omega, flag_y hcomp _ hv.1 ha hc (by simp only; omega) he, rfl⟩

theorem down_x (hcomp : ∀ i, comp i = k ↔ InBox o a b c i) (hb : 1 ≤ b) (hc : 1 ≤ c)
    {vs : List Idx} (hvs : ∀ v, v ∈ vs ↔ OnBox o a b c v) (n : Nat) :
    ∀ v, OnBox o a b c v → v.x = o.x + n → (v.y = o.y ∨ v.y = o.y + b ∨ v.z = o.z ∨ v.z = o.z + c) →
      Connected (vmap k comp vs) v ⟨o.x, v.y, v.z⟩ := by
  induction n with
  | zero =>
    rintro ⟨x, y, z⟩ hv hz he
    simp only at hz; rw [show x = o.x by simpa using hz]; exact .refl
  | succ n ih =>
    rintro ⟨x, y, z⟩ hv hz he
    simp only at hz he
    have hw : OnBox o a b c ⟨x - 1, y, z⟩ := by
      unfold OnBox InClosedBox at hv ⊢; simp only at hv ⊢; omega
    have := ih ⟨x - 1, y, z⟩ hw (by simp only; omega) he
    refine ReflTransGen.head ?_ this
    rw [joined_vmap]
    exact ⟨(hvs _).mpr hv, 4, by omega, flag_x hcomp _ hv.1 hb hc (by simp only; omega) he, rfl⟩

/-- Every surface point is connected to the lowest corner. -/
theorem to_corner (hcomp : ∀ i, comp i = k ↔ InBox o a b c i) (ha : 1 ≤ a) (hb : 1 ≤ b) (hc : 1 ≤ c)
    {vs : List Idx} (hvs : ∀ v, v ∈ vs ↔ OnBox o a b c v) (v : Idx) (hv : OnBox o a b c v) :
    Connected (vmap k comp vs) v o := by
  obtain ⟨x, y, z⟩ := v
  have hx : x = o.x + (x - o.x).toNat := by unfold OnBox InClosedBox at hv; simp only at hv; omega
  have hy : y = o.y + (y - o.y).toNat := by unfold OnBox InClosedBox at hv; simp only at hv; omega
  have hz : z = o.z + (z - o.z).toNat := by unfold OnBox InClosedBox at hv; simp only at hv; omega
  have D := hv
  unfold OnBox InClosedBox at D
  simp only at D
  have hO : ∀ x' y' z' : Int, (x' = x ∨ x' = o.x) → (y' = y ∨ y' = o.y) → (z' = z ∨ z' = o.z) →
      (x' = o.x ∨ x' = o.x + a ∨ y' = o.y ∨ y' = o.y + b ∨ z' = o.z ∨ z' = o.z + c) →
      OnBox o a b c ⟨x', y', z'⟩ := by
    intro x' y' z' h1 h2 h3 h4
    unfold OnBox InClosedBox
    refine ⟨?_, h4⟩
    simp only
    omega
  have eo : o = ⟨o.x, o.y, o.z⟩ := rfl
  by_cases c1 : x = o.x ∨ x = o.x + a
  · -- y, then z, then x
    refine (down_y hcomp ha hc hvs _ ⟨x, y, z⟩ hv hy (by first | (simp; done) | (simp only; omega))).trans ?_
    refine (down_z hcomp ha hb hvs _ ⟨x, o.y, z⟩ (hO _ _ _ (.inl rfl) (.inr rfl) (.inl rfl) (by first | omega | simp)) hz (by first | (simp; done) | (simp only; omega))).trans ?_
    exact down_x hcomp hb hc hvs _ ⟨x, o.y, o.z⟩ (hO _ _ _ (.inl rfl) (.inr rfl) (.inr rfl) (by first | omega | simp)) hx (by first | (simp; done) | (simp only; omega))
  · by_cases c2 : y = o.y ∨ y = o.y + b
    · refine (down_x hcomp hb hc hvs _ ⟨x, y, z⟩ hv hx (by first | (simp; done) | (simp only; omega))).trans ?_
      refine (down_y hcomp ha hc hvs _ ⟨o.x, y, z⟩ (hO _ _ _ (.inr rfl) (.inl rfl) (.inl rfl) (by first | omega | simp)) hy (by first | (simp; done) | (simp only; omega))).trans ?_
      exact down_z hcomp ha hb hvs _ ⟨o.x, o.y, z⟩ (hO _ _ _ (.inr rfl) (.inr rfl) (.inl rfl) (by first | omega | simp)) hz (by first | (simp; done) | (simp only; omega))
    · refine (down_x hcomp hb hc hvs _ ⟨x, y, z⟩ hv hx (by first | (simp; done) | (simp only; omega))).trans ?_
      refine (down_y hcomp ha hc hvs _ ⟨o.x, y, z⟩ (hO _ _ _ (.inr rfl) (.inl rfl) (.inl rfl) (by first | omega | simp)) hy (by first | (simp; done) | (simp only; omega))).trans ?_
      exact down_z hcomp ha hb hvs _ ⟨o.x, o.y, z⟩ (hO _ _ _ (.inr rfl) (.inr rfl) (.inl rfl) (by first | omega | simp)) hz (by first | (simp; done) | (simp only; omega))

/-- Exposed edges of a surface point lead to surface points. -/
theorem box_closed (hcomp : ∀ i, comp i = k ↔ InBox o a b c i) (v : Idx) (hv : OnBox o a b c v)
    (n : Nat) (hn : n < 6) (hf : (edgeFlags k comp v)[n]?.getD false = true) :
    OnBox o a b c (bitTarget v n) := by
  rw [edgeFlags_box hcomp] at hf
  have key : ∀ (lx rx ly ry lz rz : Bool) (n : Fin 6), (boxFlags lx rx ly ry lz rz)[n.val]?.getD false = true →
      (n = 0 → lz = true ∧ (lx && rx && ly && ry) = false) ∧
      (n = 1 → rz = true ∧ (lx && rx && ly && ry) = false) ∧
      (n = 2 → ly = true ∧ (lx && rx && lz && rz) = false) ∧
      (n = 3 → ry = true ∧ (lx && rx && lz && rz) = false) ∧
      (n = 4 → lx = true ∧ (ly && ry && lz && rz) = false) ∧
      (n = 5 → rx = true ∧ (ly && ry && lz && rz) = false) := by decide +kernel
  have K := key _ _ _ _ _ _ ⟨n, hn⟩ hf
  simp only [Bool.and_eq_false_iff, decide_eq_true_eq, decide_eq_false_iff_not] at K
  unfold OnBox InClosedBox at hv ⊢
  obtain ⟨k0, k1, k2, k3, k4, k5⟩ := K
  match n, hn with
  | 0, _ => have := k0 rfl; simp only [bitTarget]; omega
  | 1, _ => have := k1 rfl; simp only [bitTarget]; omega
  | 2, _ => have := k2 rfl; simp only [bitTarget]; omega
  | 3, _ => have := k3 rfl; simp only [bitTarget]; omega
  | 4, _ => have := k4 rfl; simp only [bitTarget]; omega
  | 5, _ => have := k5 rfl; simp only [bitTarget]; omega

/-- If the vertex set is the surface of the box, there is one piece and eight vertices of degree 3. -/
theorem holes_of_surface (hcomp : ∀ i, comp i = k ↔ InBox o a b c i) (ha : 1 ≤ a) (hb : 1 ≤ b) (hc : 1 ≤ c)
    (ord : List Idx → List Idx) (ord' : List (Idx × UInt8) → List (Idx × UInt8))
    (ho : ∀ l, (ord l).Perm l) (ho' : ∀ l, (ord' l).Perm l) (s : List Idx)
    (hvs : ∀ v, v ∈ surfaceVertices k comp s ↔ OnBox o a b c v) :
    computeHoles ord ord' k s comp = .done (0, 0) := by
  rw [computeHoles_eq ord ord' ho ho' k s comp (List.Perm.refl _)]
  have hnd := nodup_surfaceVertices k comp s
  generalize surfaceVertices k comp s = vs at hvs hnd
  have hO : OnBox o a b c o := by unfold OnBox InClosedBox; omega
  have hconn : connectivity (vmap k comp vs) = .done 1 := by
    obtain ⟨-, hd⟩ := C36_connectivity (vmap k comp vs) (by rw [vmap_keys]; exact hnd)
      (symmetric_vmap k comp vs)
    have hnd' : ¬ Dangling (vmap k comp vs) := by
      rintro ⟨v, w, hj, hw⟩
      rw [vmap_keys] at hw
      rw [joined_vmap] at hj
      obtain ⟨hv, n, hn, hf, rfl⟩ := hj
      exact hw ((hvs _).mpr (box_closed hcomp v ((hvs v).mp hv) n hn hf))
    obtain ⟨n, hn, hp⟩ := hd hnd'
    have h1 : HasPieces (vmap k comp vs) 1 := by
      refine ⟨[o], rfl, ?_, by simp, ?_⟩
      · intro r hr
        rw [vmap_keys]
        simp only [List.mem_singleton] at hr
        subst hr
        exact (hvs _).mpr hO
      · intro v hv
        rw [vmap_keys] at hv
        refine ⟨o, by simp, ?_⟩
        refine connected_symm (symmetric_vmap k comp vs) (to_corner hcomp ha hb hc hvs v ((hvs v).mp hv)) ?_
        rw [vmap_keys]; exact (hvs _).mpr hO
    rw [hn, hasPieces_unique (symmetric_vmap k comp vs) hp h1]
  have f5 : vs.filter (fun v => edgeCount k comp v = 5) = [] := by
    rw [List.filter_eq_nil_iff]
    intro v hv
    simpa using (edgeCount_box hcomp ha hb hc v ((hvs v).mp hv).1).1
  have f6 : vs.filter (fun v => edgeCount k comp v = 6) = [] := by
    rw [List.filter_eq_nil_iff]
    intro v hv
    simpa using (edgeCount_box hcomp ha hb hc v ((hvs v).mp hv).1).2.1
  have f3 : (vs.filter (fun v => edgeCount k comp v = 3)).length = 8 := by
    have hp : (vs.filter (fun v => edgeCount k comp v = 3)).Perm (corners o a b c) := by
      rw [List.perm_ext_iff_of_nodup (hnd.filter _) (nodup_corners ha hb hc)]
      intro v
      simp only [List.mem_filter, decide_eq_true_eq]
      constructor
      · rintro ⟨h1, h2⟩
        exact (edgeCount_box hcomp ha hb hc v ((hvs v).mp h1).1).2.2.mp h2
      · intro h
        have hOn : OnBox o a b c v := by
          obtain ⟨x, y, z⟩ := v
          simp only [corners, List.mem_cons, List.not_mem_nil, or_false, Idx.mk.injEq] at h
          unfold OnBox InClosedBox
          simp only
          omega
        exact ⟨(hvs v).mpr hOn, (edgeCount_box hcomp ha hb hc v hOn.1).2.2.mpr h⟩
    rw [hp.length_eq]; rfl
  rw [hconn]
  dsimp only
  rw [f5, f6, f3]
  rfl

/-- What one voxel contributes, by corner: `dx dy dz` say which corner. -/
theorem mem_voxelVertices (k : Int) (comp : Idx → Int) (i v : Idx) :
    v ∈ voxelVertices k comp i ↔
      ∃ dx dy dz : Bool, v = ⟨i.x + (if dx then 1 else 0), i.y + (if dy then 1 else 0), i.z + (if dz then 1 else 0)⟩ ∧
        (k ≠ comp ⟨i.x, i.y, i.z - 1⟩ ∨ k ≠ comp ⟨i.x, (if dy then i.y + 1 else i.y - 1), i.z⟩ ∨
         k ≠ comp ⟨(if dx then i.x + 1 else i.x - 1), i.y, i.z⟩) := by
  have ite : ∀ (p : Prop) [Decidable p] (w : Idx), v ∈ (if p then [w] else []) ↔ v = w ∧ p := by
    intro p _ w
    split <;> simp_all
  unfold voxelVertices
  simp only [List.mem_append, ite, Bool.exists_bool, Bool.false_eq_true, if_false, if_true, add_zero,
    or_assoc]

/-- A box that is one cell thick along some axis: every corner of every cell is a vertex. -/
theorem slab_vertices (hcomp : ∀ i, comp i = k ↔ InBox o a b c i) (ha : 1 ≤ a) (hb : 1 ≤ b) (hc : 1 ≤ c)
    (hslab : a = 1 ∨ b = 1 ∨ c = 1) (s : List Idx)
    (hs : ∀ i, i ∈ s ↔ InBox o a b c i ∧ ∃ j, FaceAdj i j ∧ ¬ InBox o a b c j) (v : Idx) :
    v ∈ surfaceVertices k comp s ↔ OnBox o a b c v := by
  have hne : ∀ j, k ≠ comp j ↔ ¬ InBox o a b c j := fun j => by rw [← hcomp j]; exact ⟨Ne.symm, Ne.symm⟩
  rw [mem_surfaceVertices]
  constructor
  · rintro ⟨i, hi, hv⟩
    have hi := ((hs i).mp hi).1
    obtain ⟨dx, dy, dz, rfl, -⟩ := (mem_voxelVertices k comp i v).mp hv
    unfold InBox at hi
    unfold OnBox InClosedBox
    cases dx <;> cases dy <;> cases dz <;> simp only [Bool.false_eq_true, if_false, if_true] <;> omega
  · intro hv
    obtain ⟨x, y, z⟩ := v
    unfold OnBox InClosedBox at hv
    simp only at hv
    have hi : InBox o a b c ⟨if x = o.x then x else x - 1, if y = o.y then y else y - 1, if z = o.z then z else z - 1⟩ := by
      unfold InBox; simp only
      refine ⟨?_, ?_, ?_⟩ <;> split <;> omega
    refine ⟨_, (hs _).mpr ⟨hi, ?_⟩, ?_⟩
    · unfold InBox at hi
      simp only at hi
      generalize (if x = o.x then x else x - 1) = i at hi
      generalize (if y = o.y then y else y - 1) = j at hi
      generalize (if z = o.z then z else z - 1) = l at hi
      rcases hslab with h | h | h
      · refine ⟨⟨i - 1, j, l⟩, by unfold FaceAdj; simp, ?_⟩
        unfold InBox; simp only; omega
      · refine ⟨⟨i, j - 1, l⟩, by unfold FaceAdj; simp, ?_⟩
        unfold InBox; simp only; omega
      · refine ⟨⟨i, j, l - 1⟩, by unfold FaceAdj; simp, ?_⟩
        unfold InBox; simp only; omega
    · rw [mem_voxelVertices]
      refine ⟨decide (x ≠ o.x), decide (y ≠ o.y), decide (z ≠ o.z), ?_, ?_⟩
      · rw [Idx.mk.injEq]
        simp only [decide_eq_true_eq]
        refine ⟨?_, ?_, ?_⟩ <;> split <;> simp_all
      · simp only [hne]
        unfold InBox at hi ⊢
        simp only at hi ⊢
        simp only [decide_eq_true_eq]
        rcases hslab with h | h | h
        · right; right
          intro hh
          have := hh.1
          split at this <;> simp_all <;> omega
        · right; left
          intro hh
          have := hh.2.1
          split at this <;> simp_all <;> omega
        · left
          intro hh
          have h1 := hh.2.2
          have h2 := hi.2.2
          omega

/-- A box at least two cells thick along every axis: the call throws. -/
theorem thick_throws (hcomp : ∀ i, comp i = k ↔ InBox o a b c i) (ha : 2 ≤ a) (hb : 2 ≤ b) (hc : 2 ≤ c)
    (ord : List Idx → List Idx) (ord' : List (Idx × UInt8) → List (Idx × UInt8))
    (ho : ∀ l, (ord l).Perm l) (ho' : ∀ l, (ord' l).Perm l) (s : List Idx)
    (hs : ∀ i, i ∈ s ↔ InBox o a b c i ∧ ∃ j, FaceAdj i j ∧ ¬ InBox o a b c j) :
    computeHoles ord ord' k s comp = .throw := by
  have hne : ∀ j, k ≠ comp j ↔ ¬ InBox o a b c j := fun j => by rw [← hcomp j]; exact ⟨Ne.symm, Ne.symm⟩
  rw [computeHoles_eq ord ord' ho ho' k s comp (List.Perm.refl _)]
  have hd : Dangling (vmap k comp (surfaceVertices k comp s)) := by
    refine ⟨⟨o.x, o.y + 1, o.z + c⟩, ⟨o.x + 1, o.y + 1, o.z + c⟩, ?_, ?_⟩
    · rw [joined_vmap]
      refine ⟨?_, 5, by omega, ?_, rfl⟩
      · rw [mem_surfaceVertices]
        refine ⟨⟨o.x, o.y, o.z + c - 1⟩, (hs _).mpr ⟨?_, ⟨o.x - 1, o.y, o.z + c - 1⟩, ?_, ?_⟩, ?_⟩
        · unfold InBox; simp only; omega
        · unfold FaceAdj; simp
        · unfold InBox; simp only; omega
        · rw [mem_voxelVertices]
          refine ⟨false, true, true, by simp, ?_⟩
          right; right
          rw [hne]
          unfold InBox
          simp only [Bool.false_eq_true, if_false]
          omega
      · rw [edgeFlags_box hcomp]
        simp only
        have e1 : decide (o.x ≤ o.x - 1 ∧ o.x - 1 < o.x + a) = false := by
          simp only [decide_eq_false_iff_not]; omega
        have e2 : decide (o.x ≤ o.x ∧ o.x < o.x + a) = true := by
          simp only [decide_eq_true_eq]; omega
        have e3 : decide (o.y ≤ o.y + 1 - 1 ∧ o.y + 1 - 1 < o.y + b) = true := by
          simp only [decide_eq_true_eq]; omega
        have e4 : decide (o.y ≤ o.y + 1 ∧ o.y + 1 < o.y + b) = true := by
          simp only [decide_eq_true_eq]; omega
        have e5 : decide (o.z ≤ o.z + c - 1 ∧ o.z + c - 1 < o.z + c) = true := by
          simp only [decide_eq_true_eq]; omega
        have e6 : decide (o.z ≤ o.z + c ∧ o.z + c < o.z + c) = false := by
          simp only [decide_eq_false_iff_not]; omega
        rw [e1, e2, e3, e4, e5, e6]
        decide
    · rw [vmap_keys, mem_surfaceVertices]
      rintro ⟨i, hi, hv⟩
      have hi := ((hs i).mp hi).1
      obtain ⟨dx, dy, dz, he, hx⟩ := (mem_voxelVertices k comp i _).mp hv
      simp only [hne] at hx
      rw [Idx.mk.injEq] at he
      unfold InBox at hi hx
      cases dx <;> cases dy <;> cases dz <;> simp only [Bool.false_eq_true, if_false, if_true] at he hx <;> omega
  rw [(C36_connectivity _ (by rw [vmap_keys]; exact nodup_surfaceVertices ..)
    (symmetric_vmap k comp _)).1 hd]

end Box

end Topo

/-! ## C37: boxes, end to end -/

/-- The filled cells of the map (occupancy above 0.5) are exactly a solid box inside the grid. -/
def Spec.FilledIsBox (m : CMap) (o : Idx) (a b c : Nat) : Prop :=
  (∀ i, InBox o a b c i → InBounds m.dims i) ∧
  ∀ i, InBounds m.dims i → (((m.getImm i).1).occ.gtHalf = true ↔ InBox o a b c i)

namespace CMap

theorem surfacesBy_single_aux {m : CMap} {pred : Idx → Bool} {k : UInt32} (L : List Idx)
    (hL : L.Nodup) (hk : ∀ i ∈ L, pred i = true → (m.grid.get i).comp = k) (l : List Idx)
    (hd : ∀ i ∈ L, i ∉ l) :
    L.foldl (fun acc i => if pred i then insertSurface (m.grid.get i).comp i acc else acc) [(k, l)] =
      [(k, l ++ L.filter pred)] := by
  induction L generalizing l with
  | nil => simp
  | cons i L ih =>
    rw [List.nodup_cons] at hL
    rw [List.foldl_cons]
    cases hp : pred i
    · rw [if_neg (by simp), ih hL.2 (fun j hj => hk j (List.mem_cons_of_mem _ hj)) l
        (fun j hj => hd j (List.mem_cons_of_mem _ hj)), List.filter_cons_of_neg (by simp [hp])]
    · rw [if_pos rfl, hk i List.mem_cons_self hp, insertSurface, if_pos rfl,
        if_neg (hd i List.mem_cons_self), ih hL.2 (fun j hj => hk j (List.mem_cons_of_mem _ hj)),
        List.filter_cons_of_pos hp]
      · simp
      · intro j hj hjl
        rcases List.mem_append.mp hjl with h | h
        · exact hd j (List.mem_cons_of_mem _ hj) h
        · simp only [List.mem_singleton] at h; subst h; exact hL.1 hj

theorem surfacesBy_single {m : CMap} {pred : Idx → Bool} {k : UInt32}
    (hk : ∀ i, m.dims.inB i = true → pred i = true → (m.grid.get i).comp = k)
    (hex : ∃ i, m.dims.inB i = true ∧ pred i = true) :
    m.surfacesBy pred = [(k, m.dims.all.filter pred)] := by
  unfold surfacesBy
  have gen : ∀ L : List Idx, L.Nodup → (∀ i ∈ L, pred i = true → (m.grid.get i).comp = k) →
      (∃ i ∈ L, pred i = true) →
      L.foldl (fun acc i => if pred i then insertSurface (m.grid.get i).comp i acc else acc) [] =
        [(k, L.filter pred)] := by
    intro L
    induction L with
    | nil => rintro _ _ ⟨i, h, _⟩; simp at h
    | cons i L ih =>
      intro hL hk hex
      rw [List.nodup_cons] at hL
      rw [List.foldl_cons]
      cases hp : pred i
      · rw [if_neg (by simp), ih hL.2 (fun j hj => hk j (List.mem_cons_of_mem _ hj)) ?_,
          List.filter_cons_of_neg (by simp [hp])]
        obtain ⟨j, hj, hpj⟩ := hex
        rcases List.mem_cons.mp hj with rfl | hj
        · rw [hp] at hpj; simp at hpj
        · exact ⟨j, hj, hpj⟩
      · rw [if_pos rfl, hk i List.mem_cons_self hp, insertSurface,
          surfacesBy_single_aux L hL.2 (fun j hj => hk j (List.mem_cons_of_mem _ hj)),
          List.filter_cons_of_pos hp]
        · rfl
        · intro j hj hjl
          simp only [List.mem_singleton] at hjl; subst hjl; exact hL.1 hj
  apply gen _ (Dims.nodup_all _)
  · intro i hi; exact hk i (Dims.mem_all.mp hi)
  · obtain ⟨i, h1, h2⟩ := hex
    exact ⟨i, Dims.mem_all.mpr h1, h2⟩

end CMap

theorem box_linked (m : CMap) (o : Idx) (a b c : Nat) (hbox : FilledIsBox m o a b c)
    (i : Idx) (hi : InBox o a b c i) : Linked (inGrid m) (sameSide m) i o := by
  have side : ∀ i j, InBox o a b c i → InBox o a b c j → sameSide m i j := by
    intro i j hi hj
    have h1 := (hbox.2 i (hbox.1 i hi)).mpr hi
    have h2 := (hbox.2 j (hbox.1 j hj)).mpr hj
    unfold sameSide
    rw [h1, h2]
  have hx : ∀ n : Nat, ∀ i, InBox o a b c i → i.x = o.x + n →
      Linked (inGrid m) (sameSide m) i ⟨o.x, i.y, i.z⟩ := by
    intro n
    induction n with
    | zero => rintro ⟨x, y, z⟩ _ h; simp only at h; rw [show x = o.x by simpa using h]; exact .refl
    | succ n ih =>
      rintro ⟨x, y, z⟩ hi h
      simp only at h
      have hj : InBox o a b c ⟨x - 1, y, z⟩ := by unfold InBox at hi ⊢; simp only at hi ⊢; omega
      exact ReflTransGen.head ⟨hbox.1 _ hi, hbox.1 _ hj, by unfold FaceAdj; simp, side _ _ hi hj⟩
        (ih ⟨x - 1, y, z⟩ hj (by simp only; omega))
  have hy : ∀ n : Nat, ∀ i, InBox o a b c i → i.y = o.y + n →
      Linked (inGrid m) (sameSide m) i ⟨i.x, o.y, i.z⟩ := by
    intro n
    induction n with
    | zero => rintro ⟨x, y, z⟩ _ h; simp only at h; rw [show y = o.y by simpa using h]; exact .refl
    | succ n ih =>
      rintro ⟨x, y, z⟩ hi h
      simp only at h
      have hj : InBox o a b c ⟨x, y - 1, z⟩ := by unfold InBox at hi ⊢; simp only at hi ⊢; omega
      exact ReflTransGen.head ⟨hbox.1 _ hi, hbox.1 _ hj, by unfold FaceAdj; simp, side _ _ hi hj⟩
        (ih ⟨x, y - 1, z⟩ hj (by simp only; omega))
  have hz : ∀ n : Nat, ∀ i, InBox o a b c i → i.z = o.z + n →
      Linked (inGrid m) (sameSide m) i ⟨i.x, i.y, o.z⟩ := by
    intro n
    induction n with
    | zero => rintro ⟨x, y, z⟩ _ h; simp only at h; rw [show z = o.z by simpa using h]; exact .refl
    | succ n ih =>
      rintro ⟨x, y, z⟩ hi h
      simp only at h
      have hj : InBox o a b c ⟨x, y, z - 1⟩ := by unfold InBox at hi ⊢; simp only at hi ⊢; omega
      exact ReflTransGen.head ⟨hbox.1 _ hi, hbox.1 _ hj, by unfold FaceAdj; simp, side _ _ hi hj⟩
        (ih ⟨x, y, z - 1⟩ hj (by simp only; omega))
  have D := hi
  unfold InBox at D
  refine (hx (i.x - o.x).toNat i hi (by omega)).trans ?_
  refine (hy (i.y - o.y).toNat ⟨o.x, i.y, i.z⟩ (by unfold InBox; simp only; omega) (by simp only; omega)).trans ?_
  exact hz (i.z - o.z).toNat ⟨o.x, o.y, i.z⟩ (by unfold InBox; simp only; omega) (by simp only; omega)

/-- The recomputed map on which the topology of a box is evaluated: one surface entry, with the
cells of the box that have a face neighbour outside it. -/
theorem box_setup (m : CMap) (h : m.grid.WF) (hv : m.valid = false) (hsz : m.dims.size < 2 ^ 32)
    (hoob : m.grid.oob.comp = 0) (o : Idx) (a b c : Nat) (ha : 1 ≤ a) (hb : 1 ≤ b) (hc : 1 ≤ c)
    (hbox : FilledIsBox m o a b c) (ord : List Idx → List Idx)
    (ord' : List (Idx × UInt8) → List (Idx × UInt8)) :
    ∃ (m' : CMap) (k : UInt32) (s : List Idx),
      m.computeTopology ord ord' true true = some (m', Topo.topologyOf ord ord' m'.compFn [(k, s)]) ∧
      (∀ i, m'.compFn i = (k.toNat : Int) ↔ InBox o a b c i) ∧
      (∀ i, i ∈ s ↔ InBox o a b c i ∧ ∃ j, FaceAdj i j ∧ ¬ InBox o a b c j) ∧
      k = ((m'.getImm o).1).comp := by
  obtain ⟨m', n, hu, hs, -, -, hl⟩ := m.updateCC_spec hv h hsz
  have hd : m'.dims = m.dims := hs.2.1
  have ho : InBox o a b c o := by unfold InBox; omega
  have hbo := hbox.1 o ho
  have hget : ∀ i, (m'.getImm i).1 = m'.grid.get i := fun i => rfl
  have hocc : ∀ i, (m'.grid.get i).occ = (m.grid.get i).occ := hs.2.2.2.2
  have hfill : ∀ i, InBounds m.dims i → ((m'.grid.get i).occ.gtHalf = true ↔ InBox o a b c i) := by
    intro i hi; rw [hocc]; exact hbox.2 i hi
  -- labels inside and outside the box
  have hlab : ∀ i, InBounds m.dims i → ((m'.grid.get i).comp = (m'.grid.get o).comp ↔ InBox o a b c i) := by
    intro i hi
    have := hl.same i o hi hbo
    simp only [hget] at this
    rw [← UInt32.toNat_inj, this]
    constructor
    · intro hln
      rw [← hbox.2 i hi]
      have inv : ∀ j, Linked (inGrid m) (sameSide m) i j →
          (((m.getImm i).1).occ.gtHalf = true ↔ ((m.getImm j).1).occ.gtHalf = true) := by
        intro j hj
        induction hj with
        | refl => exact Iff.rfl
        | tail _ hstep ih =>
          rw [ih]
          have := hstep.2.2.2
          unfold sameSide at this
          simp_all
      rw [inv o hln]
      exact (hbox.2 o hbo).mpr ho
    · exact box_linked m o a b c hbox i
  have hpos : (m'.grid.get o).comp ≠ 0 := by
    have := (hl.range o hbo).1
    intro he
    simp only [hget, he] at this
    simp at this
  have hgetO : ∀ j, ¬ InBounds m.dims j → (m'.grid.get j).comp = 0 := by
    intro j hj
    have : ¬ m'.grid.dims.inB j = true := fun h => hj (by rw [← hd]; exact inB_iff_spec.mp h)
    simp only [Bool.not_eq_true] at this
    simp [Grid.get, this, hs.2.2.2.1, hoob]
  have hne : ∀ j, (m'.grid.get j).comp ≠ (m'.grid.get o).comp ↔ ¬ InBox o a b c j := by
    intro j
    by_cases hj : InBounds m.dims j
    · exact not_congr (hlab j hj)
    · rw [hgetO j hj]
      exact ⟨fun _ hb' => hj (hbox.1 j hb'), fun _ => hpos.symm⟩
  have hsurf : ∀ i, InBox o a b c i →
      (m'.isCCSurface i = true ↔ ∃ j, FaceAdj i j ∧ ¬ InBox o a b c j) := by
    intro i hi
    have hib := hbox.1 i hi
    rw [isCCSurface_iff m' i (by rw [hd]; exact hib), hd]
    simp only [hget]
    rw [(hlab i hib).mpr hi]
    simp only [hne]
    constructor
    · rintro (hf | hj)
      · have out : ∀ j, ¬ InBounds m.dims j → ¬ InBox o a b c j := fun j hj hb' => hj (hbox.1 j hb')
        rcases hf with hf | hf | hf | hf | hf
        · exact ⟨⟨i.x - 1, i.y, i.z⟩, by unfold FaceAdj; simp, out _ (by unfold InBounds; simp only; omega)⟩
        · exact ⟨⟨i.x, i.y - 1, i.z⟩, by unfold FaceAdj; simp, out _ (by unfold InBounds; simp only; omega)⟩
        · exact ⟨⟨i.x, i.y, i.z - 1⟩, by unfold FaceAdj; simp, out _ (by unfold InBounds; simp only; omega)⟩
        · exact ⟨⟨i.x + 1, i.y, i.z⟩, by unfold FaceAdj; simp, out _ (by unfold InBounds; simp only; omega)⟩
        · exact ⟨⟨i.x, i.y + 1, i.z⟩, by unfold FaceAdj; simp, out _ (by unfold InBounds; simp only; omega)⟩
      · exact hj
    · exact Or.inr
  let pred : Idx → Bool := fun i =>
    if true then (m'.grid.get i).occ.gtHalf && m'.isCCSurface i else m'.isCCSurface i
  have hpred : ∀ i, InBounds m.dims i → (pred i = true ↔ InBox o a b c i ∧ ∃ j, FaceAdj i j ∧ ¬ InBox o a b c j) := by
    intro i hi
    simp only [pred, if_true, Bool.and_eq_true]
    rw [hfill i hi]
    constructor
    · rintro ⟨h1, h2⟩; exact ⟨h1, (hsurf i h1).mp h2⟩
    · rintro ⟨h1, h2⟩; exact ⟨h1, (hsurf i h1).mpr h2⟩
  have hin : ∀ i, m'.dims.inB i = true ↔ InBounds m.dims i := by
    intro i; rw [hd]; exact inB_iff_spec
  have hsingle : m'.surfacesBy pred = [((m'.grid.get o).comp, m'.dims.all.filter pred)] := by
    apply CMap.surfacesBy_single
    · intro i hi hp
      have hi := (hin i).mp hi
      exact (hlab i hi).mpr ((hpred i hi).mp hp).1
    · refine ⟨o, (hin o).mpr hbo, (hpred o hbo).mpr ⟨ho, ⟨o.x - 1, o.y, o.z⟩, by unfold FaceAdj; simp, ?_⟩⟩
      unfold InBox; simp only; omega
  refine ⟨m', (m'.grid.get o).comp, m'.dims.all.filter pred, ?_, ?_, ?_, rfl⟩
  · unfold CMap.computeTopology
    rw [if_pos rfl, hu, ← hsingle]
    rfl
  · intro i
    unfold CMap.compFn
    by_cases hi : InBounds m.dims i
    · have : m'.grid.dims.inB i = true := (hin i).mpr hi
      rw [if_pos this, ← hlab i hi, Int.ofNat_inj, UInt32.toNat_inj]
    · have : ¬ m'.grid.dims.inB i = true := fun hh => hi ((hin i).mp hh)
      rw [if_neg this]
      constructor
      · intro hh; omega
      · intro hb'; exact (hi (hbox.1 i hb')).elim
  · intro i
    rw [List.mem_filter, Dims.mem_all, hin]
    constructor
    · rintro ⟨h1, h2⟩; exact (hpred i h1).mp h2
    · rintro h1; exact ⟨hbox.1 i h1.1, (hpred i (hbox.1 i h1.1)).mpr h1⟩

/-- C37, the part that holds: for a solid box that is one cell thick along some axis the topology is
0 holes and 0 voids, for every position, size and iteration order.  Missing from C37: boxes at least
two cells thick along every axis, for which the property is false
(`C37_false_for_every_thick_box`). -/
theorem C37_slab_partial (m : CMap) (h : m.grid.WF) (hv : m.valid = false) (hsz : m.dims.size < 2 ^ 32)
    (hoob : m.grid.oob.comp = 0) (o : Idx) (a b c : Nat) (ha : 1 ≤ a) (hb : 1 ≤ b) (hc : 1 ≤ c)
    (hslab : a = 1 ∨ b = 1 ∨ c = 1)
    (hbox : FilledIsBox m o a b c) (ord : List Idx → List Idx)
    (ord' : List (Idx × UInt8) → List (Idx × UInt8))
    (ho : ∀ l, (ord l).Perm l) (ho' : ∀ l, (ord' l).Perm l) :
    ∃ (m' : CMap) (k : UInt32),
      m.computeTopology ord ord' true true = some (m', .done [(k, (0, 0))]) ∧
      k = ((m'.getImm o).1).comp := by
  obtain ⟨m', k, s, h1, h2, h3, h4⟩ := box_setup m h hv hsz hoob o a b c ha hb hc hbox ord ord'
  refine ⟨m', k, ?_, h4⟩
  have hs : ∀ i, i ∈ ord s ↔ InBox o a b c i ∧ ∃ j, FaceAdj i j ∧ ¬ InBox o a b c j := by
    intro i; rw [(ho s).mem_iff]; exact h3 i
  have := Topo.holes_of_surface h2 ha hb hc ord ord' ho ho' (ord s)
    (Topo.slab_vertices h2 ha hb hc hslab (ord s) hs)
  rw [h1, Topo.topologyOf, this, Topo.topologyOf]

/-- C37 is false: for every solid box at least two cells thick along every axis, wherever it is in the
grid, the topology computation throws `std::out_of_range`. -/
theorem C37_false_for_every_thick_box (m : CMap) (h : m.grid.WF) (hv : m.valid = false)
    (hsz : m.dims.size < 2 ^ 32) (hoob : m.grid.oob.comp = 0) (o : Idx) (a b c : Nat)
    (ha : 2 ≤ a) (hb : 2 ≤ b) (hc : 2 ≤ c)
    (hbox : FilledIsBox m o a b c) (ord : List Idx → List Idx)
    (ord' : List (Idx × UInt8) → List (Idx × UInt8))
    (ho : ∀ l, (ord l).Perm l) (ho' : ∀ l, (ord' l).Perm l) :
    ∃ m', m.computeTopology ord ord' true true = some (m', .throw) := by
  obtain ⟨m', k, s, h1, h2, h3, h4⟩ := box_setup m h hv hsz hoob o a b c (by omega) (by omega)
    (by omega) hbox ord ord'
  refine ⟨m', ?_⟩
  have hs : ∀ i, i ∈ ord s ↔ InBox o a b c i ∧ ∃ j, FaceAdj i j ∧ ¬ InBox o a b c j := by
    intro i; rw [(ho s).mem_iff]; exact h3 i
  have := Topo.thick_throws h2 ha hb hc ord ord' ho ho' (ord s) hs
  rw [h1, Topo.topologyOf, this]

/-- A 2×1×2 slab in a 3×1×3 grid, and a 2×2×2 box filling a 2×2×2 grid. -/
def exSlab : CMap :=
  ⟨⟨⟨3, 1, 3⟩, [⟨0, 0⟩, ⟨0, 0⟩, ⟨0, 0⟩, ⟨0, 0⟩, ⟨F32.one, 0⟩, ⟨F32.one, 0⟩, ⟨0, 0⟩, ⟨F32.one, 0⟩,
    ⟨F32.one, 0⟩], ⟨0, 0⟩, ⟨0, 0⟩⟩, 0, false⟩

example : exSlab.grid.WF ∧ FilledIsBox exSlab ⟨1, 0, 1⟩ 2 1 2 ∧
    (exSlab.computeTopology id id true true).map Prod.snd = some (.done [(2, (0, 0))]) := by
  refine ⟨rfl, ⟨?_, ?_⟩, by decide +kernel⟩
  · intro i hi
    unfold InBox at hi; unfold InBounds exSlab CMap.dims
    simp only at hi ⊢; omega
  · have key : ∀ i ∈ (⟨3, 1, 3⟩ : Dims).all, ((exSlab.getImm i).1.occ.gtHalf = true ↔
        ((1 ≤ i.x ∧ i.x < 1 + 2) ∧ (0 ≤ i.y ∧ i.y < 0 + 1) ∧ (1 ≤ i.z ∧ i.z < 1 + 2))) := by
      decide +kernel
    intro i hi
    exact key i (Dims.mem_all.mpr (inB_iff_spec.mpr hi))

example : ((CMap.create ⟨2, 2, 2⟩ ⟨F32.one, 0⟩ ⟨0, 0⟩).computeTopology id id true true).map Prod.snd =
    some .throw := by decide +kernel

end Verif
