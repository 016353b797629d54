import Verif.PyBatch
import Verif.Props.PyUtils

/-!
# Properties of the batch wrapper (C79)
-/

namespace Verif

open Spec NpArr SdfGen

namespace NpArr

variable {α : Type}

theorem tabulate_wf {shape : List Nat} {f : List Nat → Option α} {a : NpArr α}
    (h : tabulate shape f = some a) : a.WF ∧ a.shape = shape := by
  unfold tabulate at h
  rw [Option.map_eq_some_iff] at h
  obtain ⟨l, hl, rfl⟩ := h
  refine ⟨?_, rfl⟩
  have len : ∀ (is : List (List Nat)) (l : List α), is.mapM f = some l → l.length = is.length := by
    intro is
    induction is with
    | nil => intro l h; simp at h; simp [← h]
    | cons i is ih =>
      intro l h
      simp only [List.mapM_cons, Option.bind_eq_bind, Option.pure_def] at h
      rw [Option.bind_eq_some_iff] at h
      obtain ⟨v, _, h⟩ := h
      rw [Option.bind_eq_some_iff] at h
      obtain ⟨vs, hv, h⟩ := h
      simp only [Option.some.injEq] at h
      rw [← h]
      simp [ih vs hv]
  have all : ∀ s : List Nat, (allIdx s).length = s.prod := by
    intro s
    induction s with
    | nil => rfl
    | cons n ns ih => simp [allIdx, List.length_flatMap, ih]
  show l.length = shape.prod
  rw [len _ _ hl, all]

theorem transpose_wf {a b : NpArr α} {axes : List Nat} (h : a.transpose axes = some b) : b.WF :=
  (tabulate_wf h).1

theorem flatMap_getElem? {β : Type} (g : β → List α) (n : Nat) : ∀ (l : List β),
    (∀ b ∈ l, (g b).length = n) → ∀ (i k : Nat), k < n → ∀ x, l[i]? = some x →
      (l.flatMap g)[i * n + k]? = (g x)[k]? := by
  intro l
  induction l with
  | nil => intro _ i k _ x h; simp at h
  | cons a l ih =>
    intro hl i k hk x hx
    cases i with
    | zero =>
      simp only [List.getElem?_cons_zero, Option.some.injEq] at hx
      subst hx
      rw [List.flatMap_cons, List.getElem?_append_left (by rw [hl a (by simp)]; omega)]
      simp
    | succ i =>
      simp only [List.getElem?_cons_succ] at hx
      have ha := hl a (by simp)
      rw [List.flatMap_cons, List.getElem?_append_right (by rw [ha, Nat.succ_mul]; omega), ha]
      have : (i + 1) * n + k - n = i * n + k := by rw [Nat.succ_mul]; omega
      rw [this]
      exact ih (fun b hb => hl b (by simp [hb])) i k hk x hx

/-- Stacking well-formed arrays: entry `[b, ...]` is entry `[...]` of the `b`-th array. -/
theorem stack_spec {as : List (NpArr α)} {shape : List Nat} (hne : as ≠ [])
    (hs : ∀ a ∈ as, a.shape = shape) (hw : ∀ a ∈ as, a.WF) :
    ∃ c, stack as = some c ∧ c.shape = as.length :: shape ∧
      ∀ b a, as[b]? = some a → ∀ j, c.get (b :: j) = a.get j := by
  match as, hne with
  | a0 :: rest, _ =>
    have h0 := hs a0 (by simp)
    have hall : (a0 :: rest).all (fun b => b.shape == a0.shape) = true := by
      rw [List.all_eq_true]
      intro b hb
      rw [hs b hb, h0]
      simp
    refine ⟨⟨(a0 :: rest).length :: a0.shape, (a0 :: rest).flatMap (·.data)⟩, ?_, by rw [h0], ?_⟩
    · unfold stack; simp only []; rw [if_pos hall]
    · intro b a ha j
      have hlt : b < (a0 :: rest).length := by
        by_contra hn
        rw [List.getElem?_eq_none (by omega)] at ha
        simp at ha
      have hmem : a ∈ a0 :: rest := List.mem_of_getElem? ha
      have hd : ∀ x ∈ a0 :: rest, x.data.length = shape.prod := by
        intro x hx; rw [hw x hx, hs x hx]
      have hrav : ravel ((a0 :: rest).length :: shape) (b :: j) =
          (ravel shape j).map (b * shape.prod + ·) := by
        rw [ravel, if_pos hlt]
      unfold NpArr.get
      simp only [h0, hs a hmem, hrav]
      cases hr : ravel shape j with
      | none => simp
      | some k =>
        obtain ⟨hin, _⟩ := ravel_some hr
        obtain ⟨k', hk', hlt'⟩ := ravel_inRange hin
        rw [hr] at hk'
        simp only [Option.some.injEq] at hk'
        subst hk'
        simp only [Option.map_some, Option.bind_some]
        exact flatMap_getElem? (·.data) shape.prod (a0 :: rest) hd b k hlt' a ha

end NpArr

namespace Py

theorem compute3_wf {G : Type} {R : Rounding} {res : ℝ} {oobG : G}
    {grad : Grid FVal → Idx → Bool → List G} {env : NpArr Bool} {a : NpArr FVal} {g : NpArr G}
    (h : compute3 R res oobG grad env = some (a, g)) : a.WF ∧ g.WF := by
  unfold compute3 at h
  simp only [Option.bind_eq_bind, Option.pure_def] at h
  rw [Option.bind_eq_some_iff] at h
  obtain ⟨s, _, h⟩ := h
  rw [Option.bind_eq_some_iff] at h
  obtain ⟨a', ha, h⟩ := h
  rw [Option.bind_eq_some_iff] at h
  obtain ⟨g0, _, h⟩ := h
  rw [Option.bind_eq_some_iff] at h
  obtain ⟨g', hg, h⟩ := h
  simp only [Option.some.injEq, Prod.mk.injEq] at h
  obtain ⟨rfl, rfl⟩ := h
  refine ⟨?_, transpose_wf hg⟩
  unfold sdfArr3 at ha
  simp only [Option.bind_eq_bind] at ha
  rw [Option.bind_eq_some_iff] at ha
  obtain ⟨b, _, ha⟩ := ha
  exact transpose_wf ha

theorem mapM_range_some {β : Type} (f : Nat → Option β) (n : Nat) (h : ∀ b < n, ∃ v, f b = some v) :
    ∃ l, (List.range n).mapM f = some l ∧ l.length = n ∧ ∀ b < n, l[b]? = f b := by
  have gen : ∀ (is : List Nat), (∀ b ∈ is, ∃ v, f b = some v) →
      ∃ l, is.mapM f = some l ∧ l.length = is.length ∧
        ∀ (k b : Nat), is[k]? = some b → l[k]? = f b := by
    intro is
    induction is with
    | nil => intro _; exact ⟨[], by simp, rfl, by simp⟩
    | cons i is ih =>
      intro hi
      obtain ⟨v, hv⟩ := hi i (by simp)
      obtain ⟨l, h1, h2, h3⟩ := ih (fun b hb => hi b (by simp [hb]))
      refine ⟨v :: l, by simp [hv, h1], by simp [h2], ?_⟩
      intro k b hk
      cases k with
      | zero => simp only [List.getElem?_cons_zero, Option.some.injEq] at hk; subst hk; simp [hv]
      | succ k => simp only [List.getElem?_cons_succ] at hk ⊢; exact h3 k b hk
  obtain ⟨l, h1, h2, h3⟩ := gen (List.range n) (fun b hb => h b (List.mem_range.mp hb))
  refine ⟨l, h1, by simpa using h2, fun b hb => h3 b b ?_⟩
  rw [List.getElem?_range hb]

/-- C79.  The batch wrapper on a non-empty batch of same-shaped environments (with at least as many
environments and resolutions as the batch size) succeeds; entry `[b, y, x, z]` of the distances and
`[b, y, x, z, c]` of the gradients are those of item `b` computed on its own with its own resolution. -/
theorem C79_batch {R : Rounding} {G : Type} (oobG : G) (grad : Grid FVal → Idx → Bool → List G)
    (hg : ∀ s v, InBounds s.dims v → (grad s v true).length = 3)
    {nx ny nz : Nat} (hd : SmallGrid ⟨nx, ny, nz⟩) (hne : 0 < nx * ny * nz)
    (envs : List (NpArr Bool)) (ress : List ℝ) (n : Nat) (hn : 0 < n) (hE : n ≤ envs.length)
    (hR : n ≤ ress.length) (hw : ∀ e ∈ envs, e.WF ∧ e.shape = [ny, nx, nz])
    (hr : ∀ r ∈ ress, GoodRes R r ∧ 0 < R.r32 r) :
    ∃ sdfs grads, batch (fun r e => compute3 R r oobG grad e) envs ress n = some (sdfs, grads) ∧
      sdfs.shape = [n, ny, nx, nz] ∧ grads.shape = [n, ny, nx, nz, 3] ∧
      ∀ b < n, ∃ e r a g, envs[b]? = some e ∧ ress[b]? = some r ∧
        compute3 R r oobG grad e = some (a, g) ∧
        (∀ j, sdfs.get (b :: j) = a.get j) ∧ ∀ j, grads.get (b :: j) = g.get j := by
  have item : ∀ b < n, ∃ e r a g, envs[b]? = some e ∧ ress[b]? = some r ∧
      compute3 R r oobG grad e = some (a, g) ∧ a.shape = [ny, nx, nz] ∧ g.shape = [ny, nx, nz, 3] ∧
      a.WF ∧ g.WF := by
    intro b hb
    have he : envs[b]? = some envs[b] := List.getElem?_eq_getElem (by omega)
    have hr' : ress[b]? = some ress[b] := List.getElem?_eq_getElem (by omega)
    obtain ⟨w1, w2⟩ := hw _ (List.mem_of_getElem? he)
    obtain ⟨r1, r2⟩ := hr _ (List.mem_of_getElem? hr')
    obtain ⟨s, a, g, _, _, hc, s1, s2, _⟩ := C50_3d r1 r2 oobG grad hg w1 w2 hd hne
    obtain ⟨q1, q2⟩ := compute3_wf hc
    exact ⟨_, _, a, g, he, hr', hc, by rw [s1, w2], s2, q1, q2⟩
  obtain ⟨items, h1, h2, h3⟩ := mapM_range_some (fun b => do
    let e ← envs[b]?
    let r ← ress[b]?
    compute3 R r oobG grad e) n (by
      intro b hb
      obtain ⟨e, r, a, g, e1, e2, e3, _⟩ := item b hb
      exact ⟨(a, g), by simp [e1, e2, e3]⟩)
  have mem : ∀ p ∈ items, p.1.shape = [ny, nx, nz] ∧ p.2.shape = [ny, nx, nz, 3] ∧ p.1.WF ∧ p.2.WF := by
    intro p hp
    obtain ⟨b, hb⟩ := List.getElem?_of_mem hp
    have hlt : b < n := by
      rw [← h2]
      by_contra hn'
      rw [List.getElem?_eq_none (by omega)] at hb
      simp at hb
    obtain ⟨e, r, a, g, e1, e2, e3, e4⟩ := item b hlt
    have := h3 b hlt
    rw [hb] at this
    simp only [e1, e2, e3, Option.bind_eq_bind, Option.bind_some, Option.some.injEq] at this
    subst this
    exact e4
  have hne' : items ≠ [] := by
    intro h; rw [h] at h2; simp at h2; omega
  obtain ⟨sd, t1, t2, t3⟩ := stack_spec (as := items.map Prod.fst) (shape := [ny, nx, nz])
    (by simpa using hne') (by
      intro a ha; obtain ⟨p, hp, rfl⟩ := List.mem_map.mp ha; exact (mem p hp).1) (by
      intro a ha; obtain ⟨p, hp, rfl⟩ := List.mem_map.mp ha; exact (mem p hp).2.2.1)
  obtain ⟨gr, u1, u2, u3⟩ := stack_spec (as := items.map Prod.snd) (shape := [ny, nx, nz, 3])
    (by simpa using hne') (by
      intro a ha; obtain ⟨p, hp, rfl⟩ := List.mem_map.mp ha; exact (mem p hp).2.1) (by
      intro a ha; obtain ⟨p, hp, rfl⟩ := List.mem_map.mp ha; exact (mem p hp).2.2.2)
  refine ⟨sd, gr, ?_, by rw [t2]; simp [h2], by rw [u2]; simp [h2], ?_⟩
  · unfold batch
    simp only [Option.bind_eq_bind, Option.pure_def] at h1 ⊢
    rw [h1]
    simp only [Option.bind_some, t1, u1]
  · intro b hb
    obtain ⟨e, r, a, g, e1, e2, e3, _⟩ := item b hb
    have hi : items[b]? = some (a, g) := by
      rw [h3 b hb]; simp [e1, e2, e3]
    refine ⟨e, r, a, g, e1, e2, e3, ?_, ?_⟩
    · exact t3 b a (by simp [hi])
    · exact u3 b g (by simp [hi])

/-- C79 (failures).  An empty batch raises, and so does a batch larger than the inputs. -/
theorem C79_failures {E R V G : Type} (f : R → E → Option (NpArr V × NpArr G)) (envs : List E)
    (ress : List R) (n : Nat) (h : n = 0 ∨ envs.length < n ∨ ress.length < n) :
    batch f envs ress n = none := by
  rcases Nat.eq_zero_or_pos n with rfl | hn
  · simp [batch, stack]
  · have hb : (n - 1 < n) ∧ (envs[n - 1]? = none ∨ ress[n - 1]? = none) := by
      refine ⟨by omega, ?_⟩
      rcases h with h | h | h
      · omega
      · exact Or.inl (List.getElem?_eq_none (by omega))
      · exact Or.inr (List.getElem?_eq_none (by omega))
    have gen : ∀ (q : Nat → Option (NpArr V × NpArr G)) (is : List Nat), (∃ b ∈ is, q b = none) →
        is.mapM q = none := by
      intro q is
      induction is with
      | nil => rintro ⟨b, hb, _⟩; simp at hb
      | cons i is ih =>
        rintro ⟨b, hb, hq⟩
        rcases List.mem_cons.mp hb with rfl | hb
        · simp [hq]
        · have := ih ⟨b, hb, hq⟩
          simp [this]
    unfold batch
    simp only [Option.bind_eq_bind, Option.pure_def]
    rw [gen _ _ ⟨n - 1, List.mem_range.mpr hb.1, ?_⟩]
    · rfl
    · rcases hb.2 with h | h
      · simp [h]
      · simp [h]

/-- Two environments of shape 1×2×1 with two resolutions meet the shape hypotheses of `C79_batch`. -/
example : (∀ e ∈ [NpArr.mk [1, 2, 1] [true, false], NpArr.mk [1, 2, 1] [false, false]],
      NpArr.WF e ∧ e.shape = [1, 2, 1]) ∧ SmallGrid ⟨2, 1, 1⟩ ∧ 0 < 2 * 1 * 1 ∧
    (∀ r ∈ [(1 : ℝ), 2], GoodRes exactRounding r ∧ 0 < exactRounding.r32 r) := by
  refine ⟨?_, ?_, by decide, ?_⟩
  · intro e he
    simp only [List.mem_cons, List.not_mem_nil, or_false] at he
    rcases he with rfl | rfl <;> exact ⟨rfl, rfl⟩
  · unfold SmallGrid; decide
  · intro r hr
    have pos : (0 : ℝ) < r := by
      simp only [List.mem_cons, List.not_mem_nil, or_false] at hr
      rcases hr with rfl | rfl <;> norm_num
    refine ⟨⟨pos, rfl⟩, ?_⟩
    show (0 : EReal) < (r : EReal)
    exact_mod_cast pos

end Py

end Verif
