import Verif.SdfGen
import Verif.Interp

/-!
# SDF_Builder

Model of `src/sdf_tools/sdf_builder.cpp` and `include/sdf_tools/sdf_builder.hpp` as a state machine.

MoveIt and ROS are abstract: a planning scene is any type `Scene`, a planning scene message any type
`Msg`, and `Setup` holds the functions that act on them.  A service call is an input of the step: it
either fails (then roscpp leaves the response message default-constructed) or answers with a message.
-/

namespace Verif

namespace Builder

/-- Positions of the joints `virtual_x`, `virtual_y`, `virtual_z`. -/
abbrev Joints := V3 ℝ

/-- The members set by the constructor and the external functions. -/
structure Setup (Scene Msg : Type) where
  /-- Cell counts of a `VoxelGrid` for the configured sizes; `none` if its constructor throws. -/
  dims : Option Dims
  res : ℝ
  oob : FVal
  /-- `GridIndexToLocation` of that grid. -/
  loc : Idx → V3 ℝ
  /-- The scene of `BuildInternalPlanningScene`. -/
  scene0 : Scene
  /-- `usePlanningSceneMsg`, effect on the world. -/
  apply : Scene → Msg → Scene
  /-- `usePlanningSceneMsg`, effect on the robot state. -/
  robot : Scene → Joints → Msg → Joints
  /-- `checkCollision` for a world and a robot state. -/
  collides : Scene → Joints → Bool
  /-- A default-constructed `moveit_msgs::PlanningScene`. -/
  emptyMsg : Msg

/-- The mutable members (`include/sdf_tools/sdf_builder.hpp:29-44`); `planning_scene_ptr_` may be
null. -/
structure St (Scene : Type) where
  initialized : Bool
  hasSdf : Bool
  hasCmap : Bool
  hasScene : Bool
  scene : Option (Scene × Joints)
  sdf : Grid FVal
  cmap : Grid Nat

/-- `PlanningSceneComponents` flags. -/
inductive Component
  | names | geometry | octomap
deriving DecidableEq, Repr

/-- A public call.  `answer` is what the planning scene service does if it is contacted: `none`, the
call fails; `some m`, it answers `m`. -/
inductive Call (Msg : Type)
  | message (m : Msg)
  | updateSdf (mode : Nat) (answer : Option Msg)
  | cachedSdf
  | updateCmap (mode : Nat) (answer : Option Msg)
  | cachedCmap

/-- What the caller sees. -/
inductive Outcome
  | done
  | threw
  | sdf (g : Grid FVal)
  | cmap (g : Grid Nat)

/-- Result of a call: undefined behaviour (`none`), or the new state, the outcome and the requests sent
to the service. -/
abbrev Result (Scene : Type) := Option (St Scene × Outcome × List (List Component))

variable {Scene Msg : Type} (S : Setup Scene Msg) (R : Rounding)

/-- Default constructor (`include/sdf_tools/sdf_builder.hpp:64-70`). -/
def defaultSt (Scene : Type) : St Scene :=
  ⟨false, false, false, false, none, Grid.mk' ⟨0, 0, 0⟩ none none, Grid.mk' ⟨0, 0, 0⟩ 0 0⟩

/-- The other constructors (`src/sdf_tools/sdf_builder.cpp:18-60`). -/
def init (j : Joints) : St Scene :=
  ⟨true, false, false, false, some (S.scene0, j), Grid.mk' ⟨0, 0, 0⟩ none none,
    Grid.mk' ⟨0, 0, 0⟩ 0 0⟩

/-- Moving the robot to a cell and `checkCollision`: the three `setJointPositions` and the check
(`src/sdf_tools/sdf_builder.cpp:299-305, 342-347`). -/
def query (scene : Scene) (j : Joints) (i : Idx) : Bool × Joints :=
  let l := S.loc i
  let j := { j with x := l.x }
  let j := { j with y := l.y }
  let j := { j with z := l.z }
  (S.collides scene j, j)

/-- `UpdateCollisionMapFromPlanningScene` (`src/sdf_tools/sdf_builder.cpp:281-327`). -/
def buildCmap (s : St Scene) (scene : Scene) (j : Joints) : St Scene × Outcome :=
  match S.dims with
  | none => ({ s with scene := some (scene, j) }, .threw)
  | some d =>
    let r := d.all.foldl (fun (r : Grid Nat × Joints) i =>
      let q := query S scene r.2 i
      (r.1.set i (if q.1 then 1 else 0), q.2)) (Grid.mk' d 0 0, j)
    ({ s with scene := some (scene, r.2), cmap := r.1, hasCmap := true }, .cmap r.1)

/-- The conversion of `OOB_value_` to `uint8_t` for `temp_grid` is defined. -/
def OobFits (x : FVal) : Prop := ∃ y, x = some y ∧ -1 < y ∧ y < 256

/-- `UpdateSDFFromPlanningScene` (`src/sdf_tools/sdf_builder.cpp:329-363`).  The predicate starts from
whatever joint positions the previous query left; `query` overwrites all of them, so the model starts
every query from the positions at the call.  `none`: undefined behaviour. -/
noncomputable def buildSdf (s : St Scene) (scene : Scene) (j : Joints) : Option (St Scene × Outcome) :=
  open Classical in
  if OobFits S.oob then
    match S.dims with
    | none => some ({ s with scene := some (scene, j) }, .threw)
    | some d =>
      let j' := d.all.foldl (fun j i => (query S scene j i).2) j
      match SdfGen.extract R (S.res, S.res, S.res) d (fun i => some (query S scene j i).1) S.oob false with
      | none => some ({ s with scene := some (scene, j') }, .threw)
      | some o =>
        some ({ s with scene := some (scene, j'), sdf := o.sdf, hasSdf := true }, .sdf o.sdf)
  else none

/-- The components requested in a mode (`src/sdf_tools/sdf_builder.cpp:140-178, 221-259`). -/
def components : Nat → Option (List Component)
  | 1 => some [.octomap]
  | 2 => some [.names, .geometry]
  | 3 => some [.names, .geometry, .octomap]
  | _ => none

/-- The planning scene message used after `planning_scene_client_.call`, whose result is ignored
(`src/sdf_tools/sdf_builder.cpp:146-148, 159-161, 172-174`). -/
def response (answer : Option Msg) : Msg := answer.getD S.emptyMsg

/-- Common part of `UpdateSDF` and `UpdateCollisionMap` (`src/sdf_tools/sdf_builder.cpp:119-185,
200-266`). -/
def update (build : St Scene → Scene → Joints → Option (St Scene × Outcome)) (s : St Scene)
    (mode : Nat) (answer : Option Msg) : Result Scene :=
  if !s.initialized then some (s, .threw, [])
  else if mode = 0 then
    if s.hasScene then
      match s.scene with
      | none => none
      | some (sc, j) => (build s sc j).map fun r => (r.1, r.2, [])
    else some (s, .threw, [])
  else
    match components mode with
    | none => some (s, .threw, [])
    | some req =>
      match s.scene with
      | none => none
      | some (sc, j) =>
        let m := response S answer
        let s := { s with hasScene := true }
        (build s (S.apply sc m) (S.robot sc j m)).map fun r => (r.1, r.2, [req])

/-- One public call (`src/sdf_tools/sdf_builder.cpp:119-279, 365-369`). -/
noncomputable def step (s : St Scene) : Call Msg → Result Scene
  | .message m =>
    match s.scene with
    | none => none
    | some (sc, j) => some ({ s with scene := some (S.apply sc m, S.robot sc j m), hasScene := true }, .done, [])
  | .updateSdf mode a => update S (buildSdf S R) s mode a
  | .cachedSdf => some (s, if s.hasSdf then .sdf s.sdf else .threw, [])
  | .updateCmap mode a => update S (fun s sc j => some (buildCmap S s sc j)) s mode a
  | .cachedCmap => some (s, if s.hasCmap then .cmap s.cmap else .threw, [])

/-- A history of calls with their outcomes; `none` if one of them is undefined. -/
noncomputable def run (s : St Scene) : List (Call Msg) → Option (St Scene × List (Call Msg × Outcome))
  | [] => some (s, [])
  | c :: cs =>
    match step S R s c with
    | none => none
    | some (s', o, _) => (run s' cs).map fun r => (r.1, (c, o) :: r.2)

/-! ## The generated robot model -/

/-- A prismatic joint's `<limit>` element. -/
structure Limit where
  lower : ℝ
  upper : ℝ
  velocity : ℝ

/-- The limits of `virtual_x`, `virtual_y`, `virtual_z` in `GenerateSDFComputeBotURDFString`
(`src/sdf_tools/sdf_builder.cpp:76-110`).  Simplified: exact numbers instead of their decimal
rendering. -/
noncomputable def limits (t size : V3 ℝ) : V3 Limit :=
  ⟨⟨t.x - |2 * size.x|, 10, t.x + |2 * size.x|⟩,
   ⟨t.y - |2 * size.y|, t.y + |2 * size.y|, 10⟩,
   ⟨t.z - |2 * size.z|, t.z + |2 * size.z|, 10⟩⟩

/-- The origin of the constructor without a transform (`src/sdf_tools/sdf_builder.cpp:41-43`). -/
noncomputable def centredOrigin (size : V3 ℝ) : V3 ℝ :=
  ⟨-size.x * (1 / 2), -size.y * (1 / 2), -size.z * (1 / 2)⟩

end Builder

end Verif
