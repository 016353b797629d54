import Verif.Spec.Interp
import Verif.Builder
import Verif.Props.SdfGen

/-!
# Properties of SDF_Builder (C47, C48, C67, C68)
-/

namespace Verif

open Spec Builder

variable {Scene Msg : Type} {S : Setup Scene Msg} {R : Rounding}

/-! ## Specification of histories -/

/-- The SDF returned by the last successful `UpdateSDF` of a history. -/
def lastSdf : List (Call Msg × Outcome) → Option (Grid FVal)
  | [] => none
  | (.updateSdf _ _, .sdf g) :: h => (lastSdf h).or (some g)
  | _ :: h => lastSdf h

/-- The map returned by the last successful `UpdateCollisionMap` of a history. -/
def lastCmap : List (Call Msg × Outcome) → Option (Grid Nat)
  | [] => none
  | (.updateCmap _ _, .cmap g) :: h => (lastCmap h).or (some g)
  | _ :: h => lastCmap h

/-- Calls that give the builder a planning scene: a scene message, or an update in mode 1, 2 or 3. -/
def Provides (Msg : Type) : Call Msg → Prop
  | .message _ => True
  | .updateSdf mode _ => mode = 1 ∨ mode = 2 ∨ mode = 3
  | .updateCmap mode _ => mode = 1 ∨ mode = 2 ∨ mode = 3
  | _ => False

/-! ## Lemmas -/

namespace Builder

theorem query_eq (scene : Scene) (j : Joints) (i : Idx) :
    query S scene j i = (S.collides scene (S.loc i), S.loc i) := rfl

/-- What a build may do to the state: keep everything except the scene and its own cache. -/
structure SdfBuild (s : St Scene) (r : St Scene × Outcome) : Prop where
  init : r.1.initialized = s.initialized
  hasScene : r.1.hasScene = s.hasScene
  scene : r.1.scene.isSome = true
  cmap : r.1.hasCmap = s.hasCmap ∧ r.1.cmap = s.cmap
  cache : (r.2 = .threw ∧ r.1.hasSdf = s.hasSdf ∧ r.1.sdf = s.sdf) ∨
    ∃ g, r.2 = .sdf g ∧ r.1.hasSdf = true ∧ r.1.sdf = g

theorem buildSdf_frame {s : St Scene} {sc : Scene} {j : Joints} {r : St Scene × Outcome}
    (h : buildSdf S R s sc j = some r) : SdfBuild s r := by
  unfold buildSdf at h
  split at h
  · split at h
    · simp only [Option.some.injEq] at h
      subst h
      exact ⟨rfl, rfl, rfl, ⟨rfl, rfl⟩, Or.inl ⟨rfl, rfl, rfl⟩⟩
    · dsimp only at h
      split at h
      · simp only [Option.some.injEq] at h
        subst h
        exact ⟨rfl, rfl, rfl, ⟨rfl, rfl⟩, Or.inl ⟨rfl, rfl, rfl⟩⟩
      · simp only [Option.some.injEq] at h
        subst h
        exact ⟨rfl, rfl, rfl, ⟨rfl, rfl⟩, Or.inr ⟨_, rfl, rfl, rfl⟩⟩
  · simp at h

structure CmapBuild (s : St Scene) (r : St Scene × Outcome) : Prop where
  init : r.1.initialized = s.initialized
  hasScene : r.1.hasScene = s.hasScene
  scene : r.1.scene.isSome = true
  sdf : r.1.hasSdf = s.hasSdf ∧ r.1.sdf = s.sdf
  cache : (r.2 = .threw ∧ r.1.hasCmap = s.hasCmap ∧ r.1.cmap = s.cmap) ∨
    ∃ g, r.2 = .cmap g ∧ r.1.hasCmap = true ∧ r.1.cmap = g

theorem buildCmap_frame (s : St Scene) (sc : Scene) (j : Joints) : CmapBuild s (buildCmap S s sc j) := by
  unfold buildCmap
  split
  · exact ⟨rfl, rfl, rfl, ⟨rfl, rfl⟩, Or.inl ⟨rfl, rfl, rfl⟩⟩
  · exact ⟨rfl, rfl, rfl, ⟨rfl, rfl⟩, Or.inr ⟨_, rfl, rfl, rfl⟩⟩

/-- An update either throws at once without touching the state, or runs the build once, on the current
scene (mode 0) or on the scene updated with the response. -/
theorem update_cases {build : St Scene → Scene → Joints → Option (St Scene × Outcome)} {s : St Scene}
    {mode : Nat} {a : Option Msg} {s' : St Scene} {o : Outcome} {q : List (List Component)}
    (h : update S build s mode a = some (s', o, q)) :
    (s' = s ∧ o = .threw ∧ q = []) ∨
    (mode = 0 ∧ s.hasScene = true ∧ q = [] ∧ ∃ sc j, s.scene = some (sc, j) ∧
      build s sc j = some (s', o)) ∨
    (∃ req, components mode = some req ∧ q = [req] ∧ ∃ sc j, s.scene = some (sc, j) ∧
      build { s with hasScene := true } (S.apply sc (response S a)) (S.robot sc j (response S a)) =
        some (s', o)) := by
  unfold update at h
  split at h
  · simp only [Option.some.injEq, Prod.mk.injEq] at h
    obtain ⟨rfl, rfl, rfl⟩ := h
    exact Or.inl ⟨rfl, rfl, rfl⟩
  · split at h
    · rename_i hm
      split at h
      · rename_i hs
        split at h
        · simp at h
        · rename_i sc j hsc
          rw [Option.map_eq_some_iff] at h
          obtain ⟨r, hr, e⟩ := h
          simp only [Prod.mk.injEq] at e
          obtain ⟨rfl, rfl, rfl⟩ := e
          exact Or.inr (Or.inl ⟨hm, hs, rfl, sc, j, hsc, hr⟩)
      · simp only [Option.some.injEq, Prod.mk.injEq] at h
        obtain ⟨rfl, rfl, rfl⟩ := h
        exact Or.inl ⟨rfl, rfl, rfl⟩
    · split at h
      · simp only [Option.some.injEq, Prod.mk.injEq] at h
        obtain ⟨rfl, rfl, rfl⟩ := h
        exact Or.inl ⟨rfl, rfl, rfl⟩
      · rename_i req hreq
        split at h
        · simp at h
        · rename_i sc j hsc
          dsimp only at h
          rw [Option.map_eq_some_iff] at h
          obtain ⟨r, hr, e⟩ := h
          simp only [Prod.mk.injEq] at e
          obtain ⟨rfl, rfl, rfl⟩ := e
          exact Or.inr (Or.inr ⟨req, hreq, rfl, sc, j, hsc, hr⟩)

theorem components_isSome {mode : Nat} {req : List Component} (h : components mode = some req) :
    mode = 1 ∨ mode = 2 ∨ mode = 3 := by
  unfold components at h
  split at h <;> simp_all

/-- The caches hold the last results. -/
structure Inv (s : St Scene) (g : Option (Grid FVal)) (m : Option (Grid Nat)) : Prop where
  sdf : (s.hasSdf = true ∧ g = some s.sdf) ∨ (s.hasSdf = false ∧ g = none)
  cmap : (s.hasCmap = true ∧ m = some s.cmap) ∨ (s.hasCmap = false ∧ m = none)

theorem step_inv {s s' : St Scene} {c : Call Msg} {o : Outcome} {q : List (List Component)}
    {g : Option (Grid FVal)} {m : Option (Grid Nat)} (hi : Inv s g m)
    (h : step S R s c = some (s', o, q)) :
    Inv s' ((lastSdf [(c, o)]).or g) ((lastCmap [(c, o)]).or m) := by
  cases c with
  | message msg =>
    simp only [step] at h
    split at h
    · simp at h
    · simp only [Option.some.injEq, Prod.mk.injEq] at h
      obtain ⟨rfl, rfl, rfl⟩ := h
      exact ⟨hi.sdf, hi.cmap⟩
  | cachedSdf =>
    simp only [step, Option.some.injEq, Prod.mk.injEq] at h
    obtain ⟨rfl, rfl, rfl⟩ := h
    exact ⟨hi.sdf, hi.cmap⟩
  | cachedCmap =>
    simp only [step, Option.some.injEq, Prod.mk.injEq] at h
    obtain ⟨rfl, rfl, rfl⟩ := h
    exact ⟨hi.sdf, hi.cmap⟩
  | updateSdf mode a =>
    simp only [step] at h
    rcases update_cases h with ⟨rfl, rfl, _⟩ | ⟨_, _, _, sc, j, _, hb⟩ | ⟨_, _, _, sc, j, _, hb⟩
    · exact ⟨hi.sdf, hi.cmap⟩
    all_goals
      have hf := buildSdf_frame hb
      refine ⟨?_, by rw [hf.cmap.1, hf.cmap.2]; exact hi.cmap⟩
      rcases hf.cache with ⟨e, h1, h2⟩ | ⟨g', e, h1, h2⟩
      · dsimp only at e h1 h2
        rw [h1, h2, e]; exact hi.sdf
      · dsimp only at e h1 h2
        rw [h1, h2, e]; exact Or.inl ⟨rfl, rfl⟩
  | updateCmap mode a =>
    simp only [step] at h
    rcases update_cases h with ⟨rfl, rfl, _⟩ | ⟨_, _, _, sc, j, _, hb⟩ | ⟨_, _, _, sc, j, _, hb⟩
    · exact ⟨hi.sdf, hi.cmap⟩
    all_goals
      simp only [Option.some.injEq] at hb
      have hf := buildCmap_frame (S := S) _ _ _ |> fun x => hb ▸ x
      refine ⟨by rw [hf.sdf.1, hf.sdf.2]; exact hi.sdf, ?_⟩
      rcases hf.cache with ⟨e, h1, h2⟩ | ⟨g', e, h1, h2⟩
      · dsimp only at e h1 h2
        rw [h1, h2, e]; exact hi.cmap
      · dsimp only at e h1 h2
        rw [h1, h2, e]; exact Or.inl ⟨rfl, rfl⟩

theorem lastSdf_cons (a : Call Msg × Outcome) (h : List (Call Msg × Outcome)) :
    lastSdf (a :: h) = (lastSdf h).or (lastSdf [a]) := by
  obtain ⟨c, o⟩ := a
  cases c <;> cases o <;> simp [lastSdf]

theorem lastCmap_cons (a : Call Msg × Outcome) (h : List (Call Msg × Outcome)) :
    lastCmap (a :: h) = (lastCmap h).or (lastCmap [a]) := by
  obtain ⟨c, o⟩ := a
  cases c <;> cases o <;> simp [lastCmap]

theorem run_inv : ∀ (cs : List (Call Msg)) {s s' : St Scene} {h : List (Call Msg × Outcome)}
    {g : Option (Grid FVal)} {m : Option (Grid Nat)}, Inv s g m → run S R s cs = some (s', h) →
    Inv s' ((lastSdf h).or g) ((lastCmap h).or m) := by
  intro cs
  induction cs with
  | nil =>
    intro s s' h g m hi hr
    simp only [run, Option.some.injEq, Prod.mk.injEq] at hr
    obtain ⟨rfl, rfl⟩ := hr
    exact hi
  | cons c cs ih =>
    intro s s' h g m hi hr
    unfold run at hr
    split at hr
    · simp at hr
    · rename_i s1 o q hs
      rw [Option.map_eq_some_iff] at hr
      obtain ⟨r, hr, e⟩ := hr
      simp only [Prod.mk.injEq] at e
      obtain ⟨rfl, rfl⟩ := e
      have := ih (step_inv hi hs) (s' := r.1) (h := r.2) hr
      rw [lastSdf_cons, lastCmap_cons, Option.or_assoc, Option.or_assoc]
      exact this

theorem step_hasScene {s s' : St Scene} {c : Call Msg} {o : Outcome} {q : List (List Component)}
    (hinit : s.initialized = true) (h : step S R s c = some (s', o, q)) :
    s'.initialized = true ∧ (s'.hasScene = true ↔ s.hasScene = true ∨ Provides Msg c) := by
  have upd : ∀ {build : St Scene → Scene → Joints → Option (St Scene × Outcome)} {mode : Nat}
      {a : Option Msg}, (∀ s sc j r, build s sc j = some r →
        r.1.initialized = s.initialized ∧ r.1.hasScene = s.hasScene) →
      update S build s mode a = some (s', o, q) →
      s'.initialized = true ∧ (s'.hasScene = true ↔ s.hasScene = true ∨ (mode = 1 ∨ mode = 2 ∨ mode = 3)) := by
    intro build mode a hb h
    have h0 := h
    rcases update_cases h with ⟨rfl, rfl, rfl⟩ | ⟨rfl, hs, _, sc, j, _, e⟩ | ⟨req, hreq, _, sc, j, _, e⟩
    · refine ⟨hinit, ?_⟩
      constructor
      · exact Or.inl
      · rintro (h' | h')
        · exact h'
        · exfalso
          unfold update at h0
          rw [hinit] at h0
          have hne : mode ≠ 0 := by omega
          have hreq : ∃ req, components mode = some req := by
            rcases h' with rfl | rfl | rfl <;> exact ⟨_, rfl⟩
          obtain ⟨req, hreq⟩ := hreq
          simp only [Bool.not_true, Bool.false_eq_true, if_false, if_neg hne, hreq] at h0
          split at h0
          · simp at h0
          · rw [Option.map_eq_some_iff] at h0
            obtain ⟨r, _, e⟩ := h0
            simp at e
    · obtain ⟨h1, h2⟩ := hb _ _ _ _ e
      dsimp only at h1 h2
      rw [h1, h2]
      exact ⟨hinit, by simp [hs]⟩
    · obtain ⟨h1, h2⟩ := hb _ _ _ _ e
      dsimp only at h1 h2
      rw [h1, h2]
      exact ⟨hinit, by simp [components_isSome hreq]⟩
  cases c with
  | message msg =>
    simp only [step] at h
    split at h
    · simp at h
    · simp only [Option.some.injEq, Prod.mk.injEq] at h
      obtain ⟨rfl, rfl, rfl⟩ := h
      exact ⟨hinit, by simp [Provides]⟩
  | cachedSdf =>
    simp only [step, Option.some.injEq, Prod.mk.injEq] at h
    obtain ⟨rfl, rfl, rfl⟩ := h
    exact ⟨hinit, by simp [Provides]⟩
  | cachedCmap =>
    simp only [step, Option.some.injEq, Prod.mk.injEq] at h
    obtain ⟨rfl, rfl, rfl⟩ := h
    exact ⟨hinit, by simp [Provides]⟩
  | updateSdf mode a =>
    simp only [step] at h
    exact upd (fun s sc j r hr => ⟨(buildSdf_frame hr).init, (buildSdf_frame hr).hasScene⟩) h
  | updateCmap mode a =>
    simp only [step] at h
    refine upd (fun s sc j r hr => ?_) h
    simp only [Option.some.injEq] at hr
    subst hr
    exact ⟨(buildCmap_frame s sc j).init, (buildCmap_frame s sc j).hasScene⟩

theorem run_hasScene : ∀ (cs : List (Call Msg)) {s s' : St Scene} {h : List (Call Msg × Outcome)},
    s.initialized = true → run S R s cs = some (s', h) →
    s'.initialized = true ∧ (s'.hasScene = true ↔ s.hasScene = true ∨ ∃ c ∈ cs, Provides Msg c) := by
  intro cs
  induction cs with
  | nil =>
    intro s s' h hi hr
    simp only [run, Option.some.injEq, Prod.mk.injEq] at hr
    obtain ⟨rfl, rfl⟩ := hr
    exact ⟨hi, by simp⟩
  | cons c cs ih =>
    intro s s' h hi hr
    unfold run at hr
    split at hr
    · simp at hr
    · rename_i s1 o q hs
      rw [Option.map_eq_some_iff] at hr
      obtain ⟨r, hr, e⟩ := hr
      simp only [Prod.mk.injEq] at e
      obtain ⟨rfl, rfl⟩ := e
      obtain ⟨i1, i2⟩ := step_hasScene hi hs
      obtain ⟨j1, j2⟩ := ih i1 hr
      refine ⟨j1, ?_⟩
      rw [j2, i2]
      simp [or_assoc]

end Builder

/-! ## C47 -/

/-- C47, caches.  After any history, `GetCachedSDF` returns exactly the result of the last successful
`UpdateSDF` and throws if there was none; likewise for the collision map.  Neither changes the state. -/
theorem C47_cached {j : Joints} {cs : List (Call Msg)} {s : St Scene} {h : List (Call Msg × Outcome)}
    (hr : run S R (init S j) cs = some (s, h)) :
    step S R s .cachedSdf = some (s, match lastSdf h with | some g => .sdf g | none => .threw, []) ∧
    step S R s .cachedCmap = some (s, match lastCmap h with | some g => .cmap g | none => .threw, []) := by
  have hi : Inv (init S j) none none := ⟨Or.inr ⟨rfl, rfl⟩, Or.inr ⟨rfl, rfl⟩⟩
  have := run_inv cs hi hr
  simp only [Option.or_none] at this
  constructor
  · simp only [step]
    rcases this.sdf with ⟨a, b⟩ | ⟨a, b⟩ <;> rw [a, b] <;> rfl
  · simp only [step]
    rcases this.cmap with ⟨a, b⟩ | ⟨a, b⟩ <;> rw [a, b] <;> rfl

/-- C47, cached mode without a scene.  After any history without a scene message and without an update
in mode 1, 2 or 3, an update in mode `USE_CACHED` throws, contacts nothing and changes nothing. -/
theorem C47_no_scene {j : Joints} {cs : List (Call Msg)} {s : St Scene} {h : List (Call Msg × Outcome)}
    (hr : run S R (init S j) cs = some (s, h)) (hn : ∀ c ∈ cs, ¬ Provides Msg c) (a : Option Msg) :
    step S R s (.updateSdf 0 a) = some (s, .threw, []) ∧
    step S R s (.updateCmap 0 a) = some (s, .threw, []) := by
  obtain ⟨h1, h2⟩ := run_hasScene cs (s := init S j) rfl hr
  have h3 : s.hasScene = false := by
    cases hs : s.hasScene with
    | false => rfl
    | true =>
      rcases h2.mp hs with h' | ⟨c, hc, hp⟩
      · simp [init] at h'
      · exact absurd hp (hn c hc)
  simp [step, update, h1, h3]

/-- C47, requests.  An update in mode `USE_CACHED` never contacts the service; in modes 1, 2 and 3 it
sends exactly one request, for the octomap, the collision objects, or both. -/
theorem C47_requests {s s' : St Scene} {c : Call Msg} {mode : Nat} {a : Option Msg}
    (hc : c = .updateSdf mode a ∨ c = .updateCmap mode a) {o : Outcome} {q : List (List Component)}
    (h : step S R s c = some (s', o, q)) :
    (mode = 0 → q = []) ∧
    (s.initialized = true →
      (mode = 1 → q = [[.octomap]]) ∧ (mode = 2 → q = [[.names, .geometry]]) ∧
      (mode = 3 → q = [[.names, .geometry, .octomap]])) := by
  have key : ∀ {build : St Scene → Scene → Joints → Option (St Scene × Outcome)},
      update S build s mode a = some (s', o, q) → (mode = 0 → q = []) ∧
      (s.initialized = true →
      (mode = 1 → q = [[.octomap]]) ∧ (mode = 2 → q = [[.names, .geometry]]) ∧
      (mode = 3 → q = [[.names, .geometry, .octomap]])) := by
    intro build h
    constructor
    · rintro rfl
      rcases update_cases h with ⟨_, _, h⟩ | ⟨_, _, h, _⟩ | ⟨req, h, _⟩
      · exact h
      · exact h
      · simp [components] at h
    · intro hi
      refine ⟨?_, ?_, ?_⟩ <;>
      · rintro rfl
        unfold update at h
        simp only [hi, components, Bool.not_true, Bool.false_eq_true, if_false] at h
        split at h
        · omega
        · split at h
          · simp at h
          · rw [Option.map_eq_some_iff] at h
            obtain ⟨r, _, e⟩ := h
            simp only [Prod.mk.injEq] at e
            exact e.2.2.symm
  rcases hc with rfl | rfl
  · simp only [step] at h; exact key h
  · simp only [step] at h; exact key h

/-- C47, rejected calls.  An unknown mode, and any update of a default-constructed builder, throws,
contacts nothing and changes nothing. -/
theorem C47_rejected (s : St Scene) (mode : Nat) (a : Option Msg) (h : 4 ≤ mode ∨ s.initialized = false) :
    step S R s (.updateSdf mode a) = some (s, .threw, []) ∧
    step S R s (.updateCmap mode a) = some (s, .threw, []) := by
  by_cases hi : s.initialized = true
  · have hm : 4 ≤ mode := by
      rcases h with h | h
      · exact h
      · rw [hi] at h; simp at h
    have h0 : mode ≠ 0 := by omega
    have hc : components mode = none := by
      unfold components
      split <;> first | omega | rfl
    simp [step, update, hi, h0, hc]
  · simp [step, update, hi]

/-! ## C67 -/

/-- A setup whose grid exists: positive cell size, small grid, defined out-of-bounds conversion. -/
structure GoodSetup (S : Setup Scene Msg) (R : Rounding) (d : Dims) : Prop where
  dims : S.dims = some d
  small : SmallGrid d
  res : GoodRes R S.res
  res32 : 0 < R.r32 S.res
  oob : OobFits S.oob

/-- The scene after a history of scene messages and service answers, starting with `sc`. -/
def sceneAfter (S : Setup Scene Msg) : Scene → List (Call Msg) → Scene
  | sc, [] => sc
  | sc, .message m :: cs => sceneAfter S (S.apply sc m) cs
  | sc, .updateSdf mode a :: cs =>
    sceneAfter S (if mode = 1 ∨ mode = 2 ∨ mode = 3 then S.apply sc (a.getD S.emptyMsg) else sc) cs
  | sc, .updateCmap mode a :: cs =>
    sceneAfter S (if mode = 1 ∨ mode = 2 ∨ mode = 3 then S.apply sc (a.getD S.emptyMsg) else sc) cs
  | sc, .cachedSdf :: cs => sceneAfter S sc cs
  | sc, .cachedCmap :: cs => sceneAfter S sc cs

/-- The field is the signed distance field of the collisions at the cell centres. -/
def SdfOf (S : Setup Scene Msg) (R : Rounding) (d : Dims) (sc : Scene) (g : Grid FVal) : Prop :=
  ∃ o, SdfGen.extract R (S.res, S.res, S.res) d (fun i => some (S.collides sc (S.loc i))) S.oob false =
    some o ∧ g = o.sdf

/-- The map is 1 exactly where a cell centre collides. -/
def CmapOf (S : Setup Scene Msg) (d : Dims) (sc : Scene) (g : Grid Nat) : Prop :=
  g.dims = d ∧ ∀ v, InBounds d v → g.get v = if S.collides sc (S.loc v) then 1 else 0

namespace Builder

theorem sceneAfter_append (sc : Scene) (cs ds : List (Call Msg)) :
    sceneAfter S sc (cs ++ ds) = sceneAfter S (sceneAfter S sc cs) ds := by
  induction cs generalizing sc with
  | nil => rfl
  | cons c cs ih => cases c <;> simp [sceneAfter, ih]

theorem buildSdf_spec {d : Dims} (hS : GoodSetup S R d) (s : St Scene) (sc : Scene) (j : Joints) :
    ∃ r, buildSdf S R s sc j = some r ∧ (∃ g, r.2 = .sdf g ∧ SdfOf S R d sc g) ∧
      ∃ j', r.1.scene = some (sc, j') := by
  have ha : Answers d (fun i => some (query S sc j i).1) (fun i => S.collides sc (S.loc i)) :=
    fun i _ => rfl
  obtain ⟨o, ho, _⟩ := C13_sign hS.res hS.small ha S.oob
  unfold buildSdf
  rw [if_pos hS.oob, hS.dims]
  dsimp only
  rw [ho]
  exact ⟨_, rfl, ⟨_, rfl, o, ho, rfl⟩, _, rfl⟩

theorem cmap_fold (sc : Scene) : ∀ (l : List Idx) (g : Grid Nat) (j : Joints), g.WF →
    (∀ i ∈ l, g.dims.inB i = true) →
    let r := l.foldl (fun (r : Grid Nat × Joints) i =>
      let q := query S sc r.2 i
      (r.1.set i (if q.1 then 1 else 0), q.2)) (g, j)
    r.1.dims = g.dims ∧ ∀ v, r.1.get v =
      if v ∈ l then (if S.collides sc (S.loc v) then 1 else 0) else g.get v := by
  intro l
  induction l with
  | nil => intro g j _ _; exact ⟨rfl, by simp⟩
  | cons a l ih =>
    intro g j hw hb
    have ha := hb a (List.mem_cons_self ..)
    obtain ⟨h1, h2⟩ := ih (g.set a (if S.collides sc (S.loc a) then 1 else 0)) (S.loc a) (hw.set _ _)
      (by intro i hi; simpa using hb i (List.mem_cons_of_mem _ hi))
    refine ⟨h1.trans (by simp), fun v => (h2 v).trans ?_⟩
    by_cases hv : v ∈ l
    · simp [hv]
    · simp only [hv, if_false, List.mem_cons, or_false]
      rw [Grid.get_set hw]
      by_cases hva : v = a
      · subst hva; simp [ha]
      · have : ¬ a = v := fun e => hva e.symm
        simp [hva, this]

theorem buildCmap_spec {d : Dims} (hd : S.dims = some d) (s : St Scene) (sc : Scene) (j : Joints) :
    (∃ g, (buildCmap S s sc j).2 = .cmap g ∧ CmapOf S d sc g) ∧
      ∃ j', (buildCmap S s sc j).1.scene = some (sc, j') := by
  obtain ⟨h1, h2⟩ := cmap_fold (S := S) sc d.all (Grid.mk' d 0 0) j (Grid.wf_mk' _ _ _)
    (fun i hi => Dims.mem_all.mp hi)
  unfold buildCmap
  rw [hd]
  refine ⟨⟨_, rfl, h1, fun v hv => ?_⟩, _, rfl⟩
  rw [h2 v, if_pos (Dims.mem_all.mpr (inB_iff_spec.mpr hv))]

/-- The state after a history: initialised, with the scene the history determines. -/
structure Ready (s : St Scene) (sc : Scene) : Prop where
  init : s.initialized = true
  scene : ∃ j, s.scene = some (sc, j)

/-- An update in a good setup. -/
theorem update_ready {s : St Scene} {sc : Scene} (hs : Ready s sc)
    {build : St Scene → Scene → Joints → Option (St Scene × Outcome)} (Q : Scene → Outcome → Prop)
    (hb : ∀ s sc j, ∃ r, build s sc j = some r ∧ r.1.initialized = s.initialized ∧ Q sc r.2 ∧
      ∃ j', r.1.scene = some (sc, j')) (mode : Nat) (a : Option Msg) :
    ∃ s' o q, update S build s mode a = some (s', o, q) ∧
      Ready s' (if mode = 1 ∨ mode = 2 ∨ mode = 3 then S.apply sc (a.getD S.emptyMsg) else sc) ∧
      (mode ≤ 3 → (mode = 0 → s.hasScene = true) →
        Q (if mode = 1 ∨ mode = 2 ∨ mode = 3 then S.apply sc (a.getD S.emptyMsg) else sc) o) := by
  obtain ⟨j, hj⟩ := hs.scene
  unfold update
  rw [hs.init]
  simp only [Bool.not_true, Bool.false_eq_true, if_false]
  by_cases h0 : mode = 0
  · subst h0
    simp only [if_true]
    by_cases hsc : s.hasScene = true
    · rw [hsc, hj]
      simp only [if_true]
      obtain ⟨r, e, h1, h2, h3⟩ := hb s sc j
      rw [e]
      exact ⟨_, _, _, rfl, ⟨h1.trans hs.init, by simpa using h3⟩, fun _ _ => by simpa using h2⟩
    · simp only [hsc, Bool.false_eq_true, if_false]
      exact ⟨_, _, _, rfl, ⟨hs.init, ⟨j, by simpa using hj⟩⟩, fun _ h => by simp_all⟩
  · rw [if_neg h0]
    by_cases hm : mode = 1 ∨ mode = 2 ∨ mode = 3
    · have hreq : ∃ req, components mode = some req := by
        rcases hm with rfl | rfl | rfl <;> exact ⟨_, rfl⟩
      obtain ⟨req, hreq⟩ := hreq
      rw [hreq, hj]
      simp only [if_pos hm]
      obtain ⟨r, e, h1, h2, h3⟩ := hb ⟨true, s.hasSdf, s.hasCmap, true, some (sc, j), s.sdf, s.cmap⟩
        (S.apply sc (response S a)) (S.robot sc j (response S a))
      rw [e]
      exact ⟨_, _, _, rfl, ⟨h1, h3⟩, fun _ _ => h2⟩
    · have hreq : components mode = none := by
        unfold components
        split <;> first | omega | rfl
      rw [hreq]
      simp only [if_neg hm]
      exact ⟨_, _, _, rfl, ⟨hs.init, ⟨j, hj⟩⟩, fun h _ => by omega⟩

theorem sdf_ready {d : Dims} (hS : GoodSetup S R d) {s : St Scene} {sc : Scene} (hs : Ready s sc)
    (mode : Nat) (a : Option Msg) :
    ∃ s' o q, step S R s (.updateSdf mode a) = some (s', o, q) ∧
      Ready s' (if mode = 1 ∨ mode = 2 ∨ mode = 3 then S.apply sc (a.getD S.emptyMsg) else sc) ∧
      (mode ≤ 3 → (mode = 0 → s.hasScene = true) → ∃ g, o = .sdf g ∧
        SdfOf S R d (if mode = 1 ∨ mode = 2 ∨ mode = 3 then S.apply sc (a.getD S.emptyMsg) else sc) g) := by
  simp only [step]
  refine update_ready hs (fun sc o => ∃ g, o = .sdf g ∧ SdfOf S R d sc g) (fun s sc j => ?_) mode a
  obtain ⟨r, e, h1, h2⟩ := buildSdf_spec hS s sc j
  exact ⟨r, e, (buildSdf_frame e).init, h1, h2⟩

theorem cmap_ready {d : Dims} (hS : GoodSetup S R d) {s : St Scene} {sc : Scene} (hs : Ready s sc)
    (mode : Nat) (a : Option Msg) :
    ∃ s' o q, step S R s (.updateCmap mode a) = some (s', o, q) ∧
      Ready s' (if mode = 1 ∨ mode = 2 ∨ mode = 3 then S.apply sc (a.getD S.emptyMsg) else sc) ∧
      (mode ≤ 3 → (mode = 0 → s.hasScene = true) → ∃ g, o = .cmap g ∧
        CmapOf S d (if mode = 1 ∨ mode = 2 ∨ mode = 3 then S.apply sc (a.getD S.emptyMsg) else sc) g) := by
  simp only [step]
  refine update_ready hs (fun sc o => ∃ g, o = .cmap g ∧ CmapOf S d sc g) (fun s sc j => ?_) mode a
  exact ⟨_, rfl, (buildCmap_frame s sc j).init, buildCmap_spec hS.dims s sc j⟩

theorem run_ready {d : Dims} (hS : GoodSetup S R d) : ∀ (cs : List (Call Msg)) {s : St Scene}
    {sc : Scene}, Ready s sc → ∃ s' h, run S R s cs = some (s', h) ∧ Ready s' (sceneAfter S sc cs) := by
  intro cs
  induction cs with
  | nil => intro s sc hs; exact ⟨_, _, rfl, hs⟩
  | cons c cs ih =>
    intro s sc hs
    have key : ∃ s1 o q, step S R s c = some (s1, o, q) ∧ Ready s1 (sceneAfter S sc [c]) := by
      cases c with
      | message m =>
        obtain ⟨j, hj⟩ := hs.scene
        simp only [step, hj]
        exact ⟨_, _, _, rfl, hs.init, _, rfl⟩
      | cachedSdf => exact ⟨_, _, _, rfl, hs⟩
      | cachedCmap => exact ⟨_, _, _, rfl, hs⟩
      | updateSdf mode a =>
        obtain ⟨s1, o, q, e, h, _⟩ := sdf_ready hS hs mode a
        exact ⟨s1, o, q, e, h⟩
      | updateCmap mode a =>
        obtain ⟨s1, o, q, e, h, _⟩ := cmap_ready hS hs mode a
        exact ⟨s1, o, q, e, h⟩
    obtain ⟨s1, o, q, e, h⟩ := key
    obtain ⟨s2, hist, e2, h2⟩ := ih h
    refine ⟨s2, (c, o) :: hist, ?_, ?_⟩
    · unfold run
      rw [e]
      simp only [e2, Option.map_some]
    · have : sceneAfter S sc (c :: cs) = sceneAfter S (sceneAfter S sc [c]) cs := by
        cases c <;> rfl
      rw [this]; exact h2

end Builder

/-- C67, results.  In a good setup no history is undefined.  After every history, `UpdateSDF` in a
refreshing mode, or in cached mode once a scene was provided, returns the signed distance field of the
collisions of the current scene at the cell centres, where the current scene is the initial one with
all scene messages and service answers applied in order. -/
theorem C67_sdf {d : Dims} (hS : GoodSetup S R d) (j : Joints) (cs : List (Call Msg)) {mode : Nat}
    (hm : mode ≤ 3) (h0 : mode = 0 → ∃ c ∈ cs, Provides Msg c) (a : Option Msg) :
    ∃ s h s' g q, run S R (init S j) cs = some (s, h) ∧
      step S R s (.updateSdf mode a) = some (s', .sdf g, q) ∧
      SdfOf S R d (sceneAfter S S.scene0 (cs ++ [.updateSdf mode a])) g := by
  obtain ⟨s, h, e, hr⟩ := run_ready hS cs (s := init S j) (sc := S.scene0) ⟨rfl, j, rfl⟩
  obtain ⟨s', o, q, e', _, hq⟩ := sdf_ready hS hr mode a
  obtain ⟨g, rfl, hg⟩ := hq hm (fun hz => ((run_hasScene cs (s := init S j) rfl e).2).mpr (Or.inr (h0 hz)))
  refine ⟨s, h, s', g, q, e, e', ?_⟩
  rw [sceneAfter_append]
  exact hg

/-- C67, the collision map: the same for `UpdateCollisionMap`. -/
theorem C67_cmap {d : Dims} (hS : GoodSetup S R d) (j : Joints) (cs : List (Call Msg)) {mode : Nat}
    (hm : mode ≤ 3) (h0 : mode = 0 → ∃ c ∈ cs, Provides Msg c) (a : Option Msg) :
    ∃ s h s' g q, run S R (init S j) cs = some (s, h) ∧
      step S R s (.updateCmap mode a) = some (s', .cmap g, q) ∧
      CmapOf S d (sceneAfter S S.scene0 (cs ++ [.updateCmap mode a])) g := by
  obtain ⟨s, h, e, hr⟩ := run_ready hS cs (s := init S j) (sc := S.scene0) ⟨rfl, j, rfl⟩
  obtain ⟨s', o, q, e', _, hq⟩ := cmap_ready hS hr mode a
  obtain ⟨g, rfl, hg⟩ := hq hm (fun hz => ((run_hasScene cs (s := init S j) rfl e).2).mpr (Or.inr (h0 hz)))
  refine ⟨s, h, s', g, q, e, e', ?_⟩
  rw [sceneAfter_append]
  exact hg

/-- C67, agreement.  The SDF and the collision map of the same scene agree: a value is negative exactly
where the map is 1, which is where the cell centre collides. -/
theorem C67_agree {d : Dims} (hS : GoodSetup S R d) {sc : Scene} {g : Grid FVal} {m : Grid Nat}
    (hg : SdfOf S R d sc g) (hm : CmapOf S d sc m) {v : Idx} (hv : InBounds d v) :
    ∃ x, g.get v = some x ∧ x ≠ 0 ∧ (x < 0 ↔ m.get v = 1) ∧
      (m.get v = 1 ↔ S.collides sc (S.loc v) = true) := by
  obtain ⟨o, ho, rfl⟩ := hg
  obtain ⟨x, h1, h2, h3, _⟩ := C13_nonzero hS.res hS.res32 hS.small
    (f := fun i => S.collides sc (S.loc i)) (fun i _ => rfl) ho hv
  have hc : m.get v = 1 ↔ S.collides sc (S.loc v) = true := by
    rw [hm.2 v hv]
    cases S.collides sc (S.loc v) <;> simp
  exact ⟨x, h1, h2, h3.trans hc.symm, hc⟩

/-- C67, determinism: two SDFs of the same scene are equal, so repeating an update in cached mode
returns the same field. -/
theorem C67_deterministic {d : Dims} {sc : Scene} {g g' : Grid FVal} (h : SdfOf S R d sc g)
    (h' : SdfOf S R d sc g') : g = g' := by
  obtain ⟨o, ho, rfl⟩ := h
  obtain ⟨o', ho', rfl⟩ := h'
  rw [ho] at ho'
  simp only [Option.some.injEq] at ho'
  rw [ho']

/-! ## C48 -/

/-- C48, the full statement: if the service call fails, the update does not return an SDF. -/
def C48Statement (R : Rounding) : Prop := ∀ (Scene Msg : Type) (S : Setup Scene Msg) (d : Dims)
  (s : St Scene) (mode : Nat), GoodSetup S R d → (mode = 1 ∨ mode = 2 ∨ mode = 3) →
  ∀ s' g q, step S R s (.updateSdf mode none) ≠ some (s', .sdf g, q)

/-- C48 is false in every good setup: a failed call gives exactly the result of a successful call that
answers an empty planning scene message, for the SDF and for the collision map. -/
theorem C48_failed_call_ignored (s : St Scene) (mode : Nat) :
    step S R s (.updateSdf mode none) = step S R s (.updateSdf mode (some S.emptyMsg)) ∧
    step S R s (.updateCmap mode none) = step S R s (.updateCmap mode (some S.emptyMsg)) :=
  ⟨rfl, rfl⟩

/-- An SDF is returned although the call failed. -/
theorem C48_returns_sdf {d : Dims} (hS : GoodSetup S R d) (j : Joints) {mode : Nat}
    (hm : mode = 1 ∨ mode = 2 ∨ mode = 3) :
    ∃ s' g q, step S R (init S j) (.updateSdf mode none) = some (s', .sdf g, q) ∧
      SdfOf S R d (S.apply S.scene0 S.emptyMsg) g := by
  obtain ⟨s', o, q, e, _, hq⟩ := sdf_ready hS (s := init S j) (sc := S.scene0) ⟨rfl, j, rfl⟩ mode none
  obtain ⟨g, rfl, hg⟩ := hq (by omega) (by omega)
  rw [if_pos hm] at hg
  exact ⟨s', g, q, e, hg⟩

/-- C48, what holds: if the call succeeds, the SDF is that of the scene updated with the answer. -/
theorem C48_success_partial {d : Dims} (hS : GoodSetup S R d) (j : Joints) (cs : List (Call Msg))
    {mode : Nat} (hm : mode = 1 ∨ mode = 2 ∨ mode = 3) (m : Msg) :
    ∃ s h s' g q, run S R (init S j) cs = some (s, h) ∧
      step S R s (.updateSdf mode (some m)) = some (s', .sdf g, q) ∧
      SdfOf S R d (S.apply (sceneAfter S S.scene0 cs) m) g := by
  obtain ⟨s, h, s', g, q, h1, h2, h3⟩ := C67_sdf hS j cs (mode := mode) (by omega) (by omega) (some m)
  refine ⟨s, h, s', g, q, h1, h2, ?_⟩
  rw [sceneAfter_append] at h3
  simpa [sceneAfter, hm] using h3

/-- A 2 x 2 x 2 grid whose scene is a half space `x < b`; messages set `b`, the empty message
removes it. -/
noncomputable def exSetup : Setup (Option ℝ) (Option ℝ) where
  dims := some ⟨2, 2, 2⟩
  res := 1
  oob := some 0
  loc := fun i => ⟨i.x, i.y, i.z⟩
  scene0 := none
  apply := fun _ m => m
  robot := fun _ j _ => j
  collides := fun sc j => open Classical in match sc with | none => false | some b => decide (j.x < b)
  emptyMsg := none

theorem exSetup_good : GoodSetup exSetup SdfGen.exactRounding ⟨2, 2, 2⟩ := by
  refine ⟨rfl, by unfold SmallGrid; decide, ⟨?_, rfl⟩, ?_, ⟨0, rfl, ?_, ?_⟩⟩
  · show (0 : ℝ) < 1; norm_num
  · show (0 : EReal) < ((1 : ℝ) : EReal); exact_mod_cast zero_lt_one
  · have : ((-1 : ℝ) : EReal) < ((0 : ℝ) : EReal) := EReal.coe_lt_coe_iff.mpr (by norm_num)
    exact this
  · have : ((0 : ℝ) : EReal) < ((256 : ℝ) : EReal) := EReal.coe_lt_coe_iff.mpr (by norm_num)
    exact this

/-- C48 is false. -/
theorem C48_false : ¬ C48Statement SdfGen.exactRounding := by
  intro h
  obtain ⟨s', g, q, e, _⟩ := C48_returns_sdf exSetup_good ⟨0, 0, 0⟩ (mode := 3) (by omega)
  exact h _ _ exSetup ⟨2, 2, 2⟩ _ 3 exSetup_good (by omega) s' g q e

/-- The scene of `exSetup` matters: with an obstacle at `x < 1` a cell of the first layer collides, after
a failed call none does. -/
example : exSetup.collides (exSetup.apply exSetup.scene0 (some 1)) (exSetup.loc ⟨0, 0, 0⟩) = true ∧
    exSetup.collides (exSetup.apply (some 1) exSetup.emptyMsg) (exSetup.loc ⟨0, 0, 0⟩) = false := by
  constructor
  · show decide ((((0 : Int) : ℝ)) < 1) = true
    norm_num
  · rfl

example : ∃ c ∈ ([.message (some 1), .cachedSdf] : List (Call (Option ℝ))), Provides (Option ℝ) c :=
  ⟨_, List.mem_cons_self .., trivial⟩

/-! ## C68 -/

/-- C68, the full statement: `UpdateSDF` is defined for every builder of the documented kind, whatever
its out-of-bounds value. -/
def C68Statement (R : Rounding) : Prop := ∀ (Scene Msg : Type) (S : Setup Scene Msg) (d : Dims)
  (j : Joints) (m : Msg), S.dims = some d → SmallGrid d → GoodRes R S.res →
  step S R (init S j) (.updateSdf 3 (some m)) ≠ none

/-- C68 is false: an out-of-bounds value that does not fit into `uint8_t`, such as `+inf` or -1000, is
converted to the cell type of the temporary grid, which is undefined. -/
theorem C68_oob_undefined {d : Dims} (_hd : S.dims = some d) (ho : ¬ OobFits S.oob) (j : Joints)
    {mode : Nat} (hm : mode = 1 ∨ mode = 2 ∨ mode = 3) (a : Option Msg) :
    step S R (init S j) (.updateSdf mode a) = none := by
  simp only [step, update, init, Bool.not_true, Bool.false_eq_true, if_false]
  rw [if_neg (by omega : ¬ mode = 0)]
  have hreq : ∃ req, components mode = some req := by
    rcases hm with rfl | rfl | rfl <;> exact ⟨_, rfl⟩
  obtain ⟨req, hreq⟩ := hreq
  rw [hreq]
  simp [buildSdf, ho]

theorem C68_false : ¬ C68Statement SdfGen.exactRounding := by
  intro h
  refine h (Option ℝ) (Option ℝ) { exSetup with oob := some ⊤ } ⟨2, 2, 2⟩ ⟨0, 0, 0⟩ none rfl
    (by unfold SmallGrid; decide) exSetup_good.res ?_
  apply C68_oob_undefined (d := ⟨2, 2, 2⟩) rfl _ _ (by omega)
  rintro ⟨y, hy, _, h2⟩
  simp only [Option.some.injEq] at hy
  subst hy
  exact absurd h2 (by simp)

/-- C68, what holds: with an out-of-bounds value between -1 and 256 no history of calls is undefined. -/
theorem C68_defined_partial {d : Dims} (hS : GoodSetup S R d) (j : Joints) (cs : List (Call Msg)) :
    run S R (init S j) cs ≠ none := by
  obtain ⟨s, h, e, _⟩ := run_ready hS cs (s := init S j) (sc := S.scene0) ⟨rfl, j, rfl⟩
  rw [e]; simp

/-- A default-constructed builder has no planning scene object: a scene message is undefined. -/
theorem C68_default_undefined (m : Msg) : step S R (defaultSt Scene) (.message m) = none := rfl

/-! ## C69 -/

/-- C69, the full statement: the joint limits of the generated robot allow every cell centre. -/
def C69Statement : Prop := ∀ (t size c : V3 ℝ), 0 < size.x → 0 < size.y → 0 < size.z →
  (0 ≤ c.x ∧ c.x ≤ size.x) → (0 ≤ c.y ∧ c.y ≤ size.y) → (0 ≤ c.z ∧ c.z ≤ size.z) →
  ((limits t size).x.lower ≤ t.x + c.x ∧ t.x + c.x ≤ (limits t size).x.upper) ∧
  ((limits t size).y.lower ≤ t.y + c.y ∧ t.y + c.y ≤ (limits t size).y.upper) ∧
  ((limits t size).z.lower ≤ t.z + c.z ∧ t.z + c.z ≤ (limits t size).z.upper)

/-- C69 is false: the upper limit of the first joint is the literal 10; the computed limit is written
into the velocity attribute. -/
theorem C69_false : ¬ C69Statement := by
  intro h
  have := (h ⟨0, 0, 0⟩ ⟨20, 1, 1⟩ ⟨15, 0, 0⟩ (by norm_num) (by norm_num) (by norm_num)
    ⟨by norm_num, by norm_num⟩ ⟨by norm_num, by norm_num⟩ ⟨by norm_num, by norm_num⟩).1.2
  norm_num [limits] at this

/-- C69, what holds for an origin without rotation: the second and third joint always, the first joint
if the grid ends at 10 or before. -/
theorem C69_limits_partial (t size c : V3 ℝ) (hx : 0 < size.x) (hy : 0 < size.y) (hz : 0 < size.z)
    (cx : 0 ≤ c.x ∧ c.x ≤ size.x) (cy : 0 ≤ c.y ∧ c.y ≤ size.y) (cz : 0 ≤ c.z ∧ c.z ≤ size.z) :
    ((limits t size).x.lower ≤ t.x + c.x ∧
      (t.x + size.x ≤ 10 → t.x + c.x ≤ (limits t size).x.upper)) ∧
    ((limits t size).y.lower ≤ t.y + c.y ∧ t.y + c.y ≤ (limits t size).y.upper) ∧
    ((limits t size).z.lower ≤ t.z + c.z ∧ t.z + c.z ≤ (limits t size).z.upper) := by
  unfold limits
  dsimp only
  rw [abs_of_pos (by linarith), abs_of_pos (by linarith), abs_of_pos (by linarith)]
  refine ⟨⟨?_, fun h => ?_⟩, ⟨?_, ?_⟩, ⟨?_, ?_⟩⟩ <;> linarith [cx.1, cx.2, cy.1, cy.2, cz.1, cz.2]

/-- C69, a volume placed by the constructor without a transform: it is centred on the frame's origin, and
all three joints reach all of it as long as it is at most 20 long in x. -/
theorem C69_centred_partial (size p : V3 ℝ) (hx : |p.x| ≤ size.x / 2) (hy : |p.y| ≤ size.y / 2)
    (hz : |p.z| ≤ size.z / 2) :
    (∃ c : V3 ℝ, p = (centredOrigin size).add c ∧ (0 ≤ c.x ∧ c.x ≤ size.x) ∧
      (0 ≤ c.y ∧ c.y ≤ size.y) ∧ (0 ≤ c.z ∧ c.z ≤ size.z)) ∧
    ((limits (centredOrigin size) size).x.lower ≤ p.x ∧
      (size.x ≤ 20 → p.x ≤ (limits (centredOrigin size) size).x.upper)) ∧
    ((limits (centredOrigin size) size).y.lower ≤ p.y ∧
      p.y ≤ (limits (centredOrigin size) size).y.upper) ∧
    ((limits (centredOrigin size) size).z.lower ≤ p.z ∧
      p.z ≤ (limits (centredOrigin size) size).z.upper) := by
  have sx : 0 ≤ size.x := by linarith [abs_nonneg p.x]
  have sy : 0 ≤ size.y := by linarith [abs_nonneg p.y]
  have sz : 0 ≤ size.z := by linarith [abs_nonneg p.z]
  rw [abs_le] at hx hy hz
  refine ⟨⟨⟨p.x + size.x / 2, p.y + size.y / 2, p.z + size.z / 2⟩, ?_, ⟨?_, ?_⟩, ⟨?_, ?_⟩, ⟨?_, ?_⟩⟩, ?_⟩
  · ext <;> simp only [V3.add, centredOrigin] <;> ring
  all_goals try (dsimp only; linarith)
  unfold limits centredOrigin
  dsimp only
  rw [abs_of_nonneg (by linarith), abs_of_nonneg (by linarith), abs_of_nonneg (by linarith)]
  refine ⟨⟨?_, fun h => ?_⟩, ⟨?_, ?_⟩, ⟨?_, ?_⟩⟩ <;> linarith

/-- C69 fails for the other joints too once the origin is rotated: the limits are computed from the sizes
along the grid axes.  A 1x1x5 grid turned a quarter about x reaches y = -5, past the limit -2. -/
theorem C69_rotated_false : ∃ (a : Aff ℝ) (size c : V3 ℝ),
    (∀ p q, Spec.sqDist3 (a.app id p) (a.app id q) = Spec.sqDist3 p q) ∧
    (0 < size.x ∧ 0 < size.y ∧ 0 < size.z) ∧
    ((0 ≤ c.x ∧ c.x ≤ size.x) ∧ (0 ≤ c.y ∧ c.y ≤ size.y) ∧ (0 ≤ c.z ∧ c.z ≤ size.z)) ∧
    (a.app id c).y < (limits a.t size).y.lower := by
  refine ⟨⟨⟨1, 0, 0⟩, ⟨0, 0, -1⟩, ⟨0, 1, 0⟩, ⟨0, 0, 0⟩⟩, ⟨1, 1, 5⟩, ⟨0, 0, 5⟩, ?_, ?_, ?_, ?_⟩
  · intro p q
    simp [Aff.app, Spec.sqDist3]; ring
  · norm_num
  · norm_num
  · norm_num [Aff.app, limits]

end Verif
