import Verif.CMapExports

/-!
# Topology of components: surface vertices, holes and voids

Model of `include/sdf_tools/topology_computation.hpp:151-296` and `326-718`.

Hash maps are lists; the order in which a hash map is iterated is a parameter.
Simplification: the `int32_t` counters are unbounded integers.
-/

namespace Verif

namespace Topo

/-! ## Connectivity of surface vertices -/

/-- The vertices the connectivity bits of `v` point to, in the order in which the code tests the
bits (`include/sdf_tools/topology_computation.hpp:202-283`). -/
def nbrs (c : UInt8) (v : Idx) : List Idx :=
  (if c &&& 0b00000001 > 0 then [⟨v.x, v.y, v.z - 1⟩] else []) ++
  (if c &&& 0b00000010 > 0 then [⟨v.x, v.y, v.z + 1⟩] else []) ++
  (if c &&& 0b00000100 > 0 then [⟨v.x, v.y - 1, v.z⟩] else []) ++
  (if c &&& 0b00001000 > 0 then [⟨v.x, v.y + 1, v.z⟩] else []) ++
  (if c &&& 0b00010000 > 0 then [⟨v.x - 1, v.y, v.z⟩] else []) ++
  (if c &&& 0b00100000 > 0 then [⟨v.x + 1, v.y, v.z⟩] else [])

/-- `if (queued_hashtable[w] <= 0) { queued_hashtable[w] = 1; working_queue.push_back(w); }`, for
each neighbour in turn. -/
def enqueue : List Idx → List Idx → List Idx → List Idx × List Idx
  | [], queue, queued => (queue, queued)
  | w :: ws, queue, queued =>
    if w ∈ queued then enqueue ws queue queued else enqueue ws (queue ++ [w]) (w :: queued)

/-- Outcome of a computation that may throw `std::out_of_range`. -/
inductive Outcome (α : Type) where
  | throw
  | running
  | done (a : α)
deriving DecidableEq, Repr

/-- The `while` loop over the working queue
(`include/sdf_tools/topology_computation.hpp:190-285`).  Returns the marked vertices and
`component_processed_vertices`. -/
def search (at? : Idx → Option UInt8) :
    Nat → List Idx → List Idx → List Idx → Nat → Outcome (List Idx × Nat)
  | _, [], _, marked, n => .done (marked, n)
  | 0, _ :: _, _, _, _ => .running
  | fuel + 1, v :: queue, queued, marked, n =>
    match at? v with
    | none => .throw
    | some c =>
      let q := enqueue (nbrs c v) queue queued
      search at? fuel q.1 q.2 (v :: marked) (n + 1)

/-- The loop over the hash map (`include/sdf_tools/topology_computation.hpp:165-294`). -/
def components (at? : Idx → Option UInt8) (size : Nat) :
    List Idx → List Idx → Nat → Nat → Outcome Nat
  | [], _, comps, _ => .done comps
  | key :: keys, marked, comps, processed =>
    if key ∈ marked then components at? size keys marked comps processed
    else
      match search at? (size + 1) [key] [key] marked 0 with
      | .throw => .throw
      | .running => .running
      | .done (marked', n) =>
        if processed + n = size then .done (comps + 1)
        else components at? size keys marked' (comps + 1) (processed + n)

/-- `surface_vertex_connectivity.at(v)`. -/
def atKey (vs : List (Idx × UInt8)) (v : Idx) : Option UInt8 :=
  (vs.find? fun p => p.1 == v).map Prod.snd

/-- `ComputeConnectivityOfSurfaceVertices`
(`include/sdf_tools/topology_computation.hpp:151-296`), on the hash map in iteration order. -/
def connectivity (vs : List (Idx × UInt8)) : Outcome Nat :=
  components (atKey vs) vs.length (vs.map Prod.fst) [] 0 0

/-! ## Holes -/

/-- `surface_vertices[v] = 1` on a hash map, as a list without duplicates. -/
def addKey (l : List Idx) (v : Idx) : List Idx := if v ∈ l then l else l ++ [v]

/-- The vertices one surface voxel contributes, with the neighbour queries as written; `xyzp1` asks
for `z - 1` (`include/sdf_tools/topology_computation.hpp:376-485`). -/
def voxelVertices (k : Int) (comp : Idx → Int) (i : Idx) : List Idx :=
  let zm := comp ⟨i.x, i.y, i.z - 1⟩
  let zp := comp ⟨i.x, i.y, i.z - 1⟩
  let ym := comp ⟨i.x, i.y - 1, i.z⟩
  let yp := comp ⟨i.x, i.y + 1, i.z⟩
  let xm := comp ⟨i.x - 1, i.y, i.z⟩
  let xp := comp ⟨i.x + 1, i.y, i.z⟩
  (if k ≠ zm ∨ k ≠ ym ∨ k ≠ xm then [⟨i.x, i.y, i.z⟩] else []) ++
  (if k ≠ zp ∨ k ≠ ym ∨ k ≠ xm then [⟨i.x, i.y, i.z + 1⟩] else []) ++
  (if k ≠ zm ∨ k ≠ yp ∨ k ≠ xm then [⟨i.x, i.y + 1, i.z⟩] else []) ++
  (if k ≠ zp ∨ k ≠ yp ∨ k ≠ xm then [⟨i.x, i.y + 1, i.z + 1⟩] else []) ++
  (if k ≠ zm ∨ k ≠ ym ∨ k ≠ xp then [⟨i.x + 1, i.y, i.z⟩] else []) ++
  (if k ≠ zp ∨ k ≠ ym ∨ k ≠ xp then [⟨i.x + 1, i.y, i.z + 1⟩] else []) ++
  (if k ≠ zm ∨ k ≠ yp ∨ k ≠ xp then [⟨i.x + 1, i.y + 1, i.z⟩] else []) ++
  (if k ≠ zp ∨ k ≠ yp ∨ k ≠ xp then [⟨i.x + 1, i.y + 1, i.z + 1⟩] else [])

/-- The keys of `surface_vertices` after the first loop
(`include/sdf_tools/topology_computation.hpp:374-485`). -/
def surfaceVertices (k : Int) (comp : Idx → Int) (surface : List Idx) : List Idx :=
  surface.foldl (fun acc i => (voxelVertices k comp i).foldl addKey acc) []

/-- An edge is exposed if some but not all of the four voxels around it belong to the component
(`include/sdf_tools/topology_computation.hpp:531-608`). -/
def exposed (k a b c d : Int) : Bool :=
  (k ≠ a ∨ k ≠ b ∨ k ≠ c ∨ k ≠ d) ∧ ¬ (k ≠ a ∧ k ≠ b ∧ k ≠ c ∧ k ≠ d)

/-- The six exposure tests of a vertex in the order z-, z+, y-, y+, x-, x+
(`include/sdf_tools/topology_computation.hpp:514-608`). -/
def edgeFlags (k : Int) (comp : Idx → Int) (v : Idx) : List Bool :=
  let mmm := comp ⟨v.x - 1, v.y - 1, v.z - 1⟩
  let mmp := comp ⟨v.x - 1, v.y - 1, v.z + 0⟩
  let mpm := comp ⟨v.x - 1, v.y + 0, v.z - 1⟩
  let mpp := comp ⟨v.x - 1, v.y + 0, v.z + 0⟩
  let pmm := comp ⟨v.x + 0, v.y - 1, v.z - 1⟩
  let pmp := comp ⟨v.x + 0, v.y - 1, v.z + 0⟩
  let ppm := comp ⟨v.x + 0, v.y + 0, v.z - 1⟩
  let ppp := comp ⟨v.x + 0, v.y + 0, v.z + 0⟩
  [exposed k mmm mpm pmm ppm, exposed k mmp mpp pmp ppp,
   exposed k mmm mmp pmm pmp, exposed k mpm mpp ppm ppp,
   exposed k mmm mmp mpm mpp, exposed k pmm pmp ppm ppp]

/-- `vertex_connectivity[key]`: bit `n` for the `n`-th exposed edge. -/
def packBits : List Bool → UInt8
  | [z0, z1, y0, y1, x0, x1] =>
    (if z0 then 0b00000001 else 0) ||| (if z1 then 0b00000010 else 0) |||
    (if y0 then 0b00000100 else 0) ||| (if y1 then 0b00001000 else 0) |||
    (if x0 then 0b00010000 else 0) ||| (if x1 then 0b00100000 else 0)
  | _ => 0

/-- `edge_count`. -/
def edgeCount (k : Int) (comp : Idx → Int) (v : Idx) : Nat := (edgeFlags k comp v).count true

/-- `ComputeHolesInSurface` (`include/sdf_tools/topology_computation.hpp:326-639`).  `ord` is the
iteration order of `surface_vertices`, `ord'` that of `vertex_connectivity`. -/
def computeHoles (ord : List Idx → List Idx) (ord' : List (Idx × UInt8) → List (Idx × UInt8))
    (k : Int) (surface : List Idx) (comp : Idx → Int) : Outcome (Int × Int) :=
  let vs := ord (surfaceVertices k comp surface)
  let m3 := (vs.filter fun v => edgeCount k comp v = 3).length
  let m5 := (vs.filter fun v => edgeCount k comp v = 5).length
  let m6 := (vs.filter fun v => edgeCount k comp v = 6).length
  match connectivity (ord' (vs.map fun v => (v, packBits (edgeFlags k comp v)))) with
  | .throw => .throw
  | .running => .running
  | .done surfaces =>
    let voids : Int := (surfaces : Int) - 1
    let raw : Int := 1 + (((m5 : Int) + 2 * m6 - m3).tdiv 8)
    .done (raw + voids, voids)

/-- The loop over the components (`include/sdf_tools/topology_computation.hpp:641-671`). -/
def topologyOf (ord : List Idx → List Idx) (ord' : List (Idx × UInt8) → List (Idx × UInt8))
    (comp : Idx → Int) : List (UInt32 × List Idx) → Outcome (List (UInt32 × (Int × Int)))
  | [] => .done []
  | (k, s) :: rest =>
    match computeHoles ord ord' (k.toNat : Int) (ord s) comp with
    | .throw => .throw
    | .running => .running
    | .done hv =>
      match topologyOf ord ord' comp rest with
      | .throw => .throw
      | .running => .running
      | .done l => .done ((k, hv) :: l)

/-! ## Surface conversions -/

/-- `ExtractStaticSurface` (`include/sdf_tools/topology_computation.hpp:675-693`). -/
def staticSurface (raw : List (Idx × UInt8)) : List Idx :=
  raw.foldl (fun l p => if p.2 = 1 then l ++ [p.1] else l) []

/-- `m[key] = value` on a hash map. -/
def insertKey {α : Type} (m : List (Idx × α)) (k : Idx) (a : α) : List (Idx × α) :=
  match m with
  | [] => [(k, a)]
  | (k', a') :: m => if k' = k then (k, a) :: m else (k', a') :: insertKey m k a

/-- `ConvertToDynamicSurface` (`include/sdf_tools/topology_computation.hpp:695-706`). -/
def dynamicSurface (l : List Idx) : List (Idx × UInt8) := l.foldl (fun m i => insertKey m i 1) []

/-- `BuildSurfaceIndexMap` (`include/sdf_tools/topology_computation.hpp:708-718`). -/
def surfaceIndexMap (l : List Idx) : List (Idx × Nat) :=
  l.zipIdx.foldl (fun m p => insertKey m p.1 p.2) []

end Topo

/-- `CollisionMapGrid::ComputeComponentTopology` (`src/sdf_tools/collision_map.cpp:620-671`).  The
outcome `none` would be non-termination of the component update. -/
def CMap.computeTopology (ord : List Idx → List Idx) (ord' : List (Idx × UInt8) → List (Idx × UInt8))
    (m : CMap) (ignoreEmpty recompute : Bool) :
    Option (CMap × Topo.Outcome (List (UInt32 × (Int × Int)))) :=
  let go (m : CMap) :=
    (m, Topo.topologyOf ord ord' m.compFn (m.surfacesBy fun i =>
      if ignoreEmpty then (m.grid.get i).occ.gtHalf && m.isCCSurface i else m.isCCSurface i))
  if recompute then (m.updateCC).map fun r => go r.1 else some (go m)

end Verif
