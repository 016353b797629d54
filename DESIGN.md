# Formal model of sdf_tools

This document says what is modelled, how each property in `properties.jsonl` is proved, and what has to be trusted.

## 1. Layout

- `properties.jsonl`: the properties, in terms of the public API.
- `lean/Verif/`: the model and the proofs (Lean 4.33.0, single Mathlib modules).
  - Model modules carry `file:lines` citations into `/repo` on every definition.
  - Property modules (`Verif/Props/*.lean`) hold the specifications, the property theorems and a non-vacuity `example` beside each.
- `MANIFEST.json`: property -> theorem names and status.
- `seeded/LOG.jsonl`: mutation tests of the theorems.

## 2. Trusted base

1. Lean's kernel (the gate re-checks all modules with it).
2. The axioms `propext`, `Classical.choice`, `Quot.sound`; no others.
   No `sorry`, `native_decide`, `bv_decide`, own `axiom`, `unsafe` or `implemented_by`.
3. The reading of the C++ and Python source that the model definitions state in their comments.
4. The behaviour of code outside the repository, made explicit in the model:
   - `arc_utilities/voxel_grid.hpp` (`VoxelGrid`): an index is in bounds iff `0 <= i < n` on each axis.
     The storage index is `x*ny*nz + y*nz + z`. An out-of-bounds read returns `(oob_value, false)`.
     Cell centres in the grid frame are `(i + 1/2) * cell_size`, and a grid-frame point lies in cell `floor(p / cell_size)`.
   - `arc_utilities/serialization.hpp`: plain data is copied byte by byte (little endian). Vectors and strings are a 64-bit length followed by the elements.
     Reading past the end of the buffer fails.
   - `zlib_helpers`: decompressing a compressed buffer gives the buffer back (a hypothesis of the theorems that need it).
   - Eigen transforms: an isometry and its inverse cancel and preserve distances (exact arithmetic).
   - Eigen in floating point (C109): `norm` is even and has a relative error of at most 2^-48 (`NormOk`; proved for the square root of the sum of squares with each operation rounded); a product of quaternions is the textbook formula evaluated from left to right.
   - Eigen's quaternions (C111): `Quaterniond(matrix)` (by the trace, else by the largest diagonal entry), `inverse` (conjugate over squared norm) and the product, as documented; the sum in `squaredNorm` in any order. In floating point (C116, C117): every operation of these formulas rounded once, sums from left to right, `sqrt` correctly rounded; `Isometry3d::rotation()` is the linear part.
   - Eigen's products of a transform and a location, and the base class's cell lookup, in floating point (C112): any evaluation with a relative error of 2^-50 of the terms; the inverse of an isometry is the transposed rotation and minus its product with the translation. A coordinate that is NaN, infinite or out of the range of `int64_t` is converted to the least `int64_t`, as on x86-64 (undefined in C++).
   - Eigen's `AutoDiffScalar` (C113): sum, difference, product (`a.derivatives * b.value + b.derivatives * a.value`) and scaling act on the value and on each partial derivative with one rounding per operation; the product of the inverse transform and the seeded location is added from left to right or in pairs.
   - `cv_bridge` and OpenCV (C143): `toCvCopy` throws or gives a matrix whose rows hold the bytes of their pixels one after the other; `at<uint8_t>(i, j)` is byte `j` of row `i` (compiled without debug assertions).
   - pybind11: argument and result conversion as documented (`Verif/PyBind.lean` states the rules; lists are copied, unregistered types raise `TypeError`).
   - ROS messages and services, MoveIt planning scenes: abstract values and abstract answers.
     The robot generated by `SDF_Builder` has a visual box but no collision geometry; whether it ever collides is up to MoveIt, i.e. to the abstract `collides`.
5. Arithmetic. Integers are exact; 32-bit overflow and iterator invalidation in the distance transform are explicit undefined-behaviour outcomes.
   Occupancies are IEEE binary32 bit patterns, and their comparisons with 0.5 are modelled exactly (NaN included).
   Distances are extended reals together with an abstract monotone rounding to the stored float. IEEE 754 round-to-nearest-even (binary64, binary32) is defined in `Verif/Ieee.lean` and proved to be an instance; C86 is stated for it. C139 proves that this definition is IEEE rounding on the bit patterns of `float` and `double`.
   Interpolation, gradients and projection are modelled over an exact ordered field. C101 to C103 and C106 to C108 bound the rounding errors of distance estimates, grid-aligned and smoothed gradients, the projections and the boundary distance in IEEE arithmetic; C109 does the local extrema and the convex segmentation in IEEE arithmetic (C81 to C83 use exact gradients). C111 and C112 do the same for the rotation of gradients and for the transforms between the world and the grid frame, and C113 for automatic differentiation.

## 3. What is modelled

| Code | Model | Properties in |
|---|---|---|
| `VoxelGrid` storage and bounds (external contract) | `Verif/Grid.lean` | `Props/CollisionMap.lean`, `Props/Sdf.lean`, `Props/SdfHistory.lean` |
| binary32 occupancy comparisons | `Verif/F32.lean` | (used everywhere) |
| `collision_map.hpp/.cpp`: cells, setters, flags, components, surfaces, corners | `Verif/CollisionMap.lean` | `Props/CollisionMap.lean`, `Props/Surfaces.lean` |
| `collision_map.hpp/.cpp`: component extraction, resample, marker exports | `Verif/CMapExports.lean` | `Props/CMapExports.lean` |
| `topology_computation.hpp`: flood fill | `Verif/Components.lean` | `Props/CollisionMap.lean` |
| `topology_computation.hpp`: surface graph, holes, voids | `Verif/Topology.lean` | `Props/Topology.lean`, `Props/TopologyBox.lean`, `Props/TopologyEuler.lean`, `Props/TaggedTopology.lean` (spec `Spec/Topology.lean`) |
| `sdf_generation.hpp`: distance transform | `Verif/DistanceField.lean` | `Props/DistanceField.lean` |
| `sdf_generation.hpp`: SDF extraction, virtual border | `Verif/SdfGen.lean` | `Props/SdfGen.lean` |
| `sdf.hpp`: access, lock | `Verif/Sdf.lean` | `Props/Sdf.lean` |
| `sdf.hpp`: estimates, gradients, boundary, projection | `Verif/Interp.lean` | `Props/Interp.lean`, `Props/InterpCont.lean`, `Props/Project.lean`, `Props/Gradients.lean` |
| `sdf.hpp`: automatic differentiation | `Verif/AutoDiff.lean` | `Props/AutoDiff.lean`, `Props/Gradients.lean`, `Props/IndexGradient.lean` |
| `sdf.hpp`: automatic differentiation in floating point | `Verif/AutoDiffFloat.lean` | `Props/AutoDiffFloat.lean`, `Props/AutoDiffIndex.lean` |
| `sdf.cpp`: local extrema map | `Verif/Extrema.lean` | `Props/Extrema.lean` |
| `sdf.cpp`: marker exports | `Verif/SdfDisplay.lean` | `Props/SdfDisplay.lean` |
| `sdf.cpp`: colours of the marker exports in floating point | `Verif/SdfDisplayFloat.lean` | `Props/SdfDisplayFloat.lean` |
| `sdf.cpp`, `collision_map.cpp`, `tagged_object_collision_map.cpp`: `DeserializeSelf` acting on an existing object, with exceptions | `Verif/SerialInto.lean` | `Props/SerialInto.lean` |
| the same: `SaveToFile` on a file system that can fail, histories of saves | `Verif/Files.lean` | `Props/Files.lean` |
| the same: programs with objects of the three types, files, messages and restarts | `Verif/Sessions.lean` | `Props/Sessions.lean` (spec `Spec/Sessions.lean`) |
| `sdf.hpp`: distance estimates in floating point | `Verif/InterpFloat.lean` | `Props/InterpFloat.lean` |
| `sdf.hpp`: grid-aligned gradients and the projection loop in floating point | `Verif/GradFloat.lean` | `Props/GradFloat.lean` |
| `sdf.hpp`: smoothed gradients in floating point | `Verif/SmoothFloat.lean` | `Props/SmoothFloat.lean` |
| `sdf.hpp`: boundary distance and projection into the volume in floating point | `Verif/BoundaryFloat.lean` | `Props/BoundaryFloat.lean`, `Props/BoundaryWorld.lean` |
| `sdf.hpp`: rotation of gradients into the world frame, exact and in floating point | `Verif/Rotation.lean`, `Verif/QuatFloat.lean` | `Props/Rotation.lean`, `Props/WorldGradient.lean` |
| transforms between the frames, their inverse and the cell lookup in floating point (external contracts) | `Verif/FrameFloat.lean` | `Props/FrameFloat.lean`, `Props/NonFinite.lean`, `Props/InterpLip.lean`, `Props/SignedDistance.lean`, `Props/SignedEstimate.lean`, `Props/WorldDistance.lean`, `Props/ObjectDistance.lean`, `Props/CheckedField.lean`, `Props/SlowChange.lean`, `Props/ProjectedClear.lean`, `Props/PathCheck.lean`, `Props/AnywhereReport.lean`, `Props/AnywhereBorder.lean`, `Props/AnywhereCloud.lean`, `Props/BorderClear.lean`, `Props/CloudPath.lean` (specs `Spec/Volume.lean`, `Spec/SignedDistance.lean`, `Spec/WorldDistance.lean`, `Spec/Checked.lean`, `Spec/Path.lean`, `Spec/Border.lean`) |
| writing cells by position in floating point (`collision_map.hpp:353-387, 421-455`) | `Verif/WorldMarks.lean` | `Props/WorldMarks.lean` (spec `Spec/Marks.lean`) |
| resampling in floating point (`collision_map.cpp:673-695`, `tagged_object_collision_map.cpp:399-422`), writing cells of tagged maps by position | `Verif/ResampleFloat.lean` | `Props/ResampleFloat.lean`, `Props/TaggedPath.lean` (spec `Spec/Resample.lean`) |
| `sdf.cpp`, `tagged_object_collision_map.cpp`: local extrema and convex segments in floating point | `Verif/ConvexFloat.lean` | `Props/ConvexFloat.lean`, `Props/ConvexAgree.lean` |
| `bindings.cpp`: storing and restoring fields from Python | `Verif/PyBind.lean` | `Props/PyBind.lean` |
| serialization, files, messages of all three classes | `Verif/Serial.lean` | `Props/Serial.lean`, `Props/FileLayout.lean` (spec `Spec/FileLayout.lean`) |
| `tagged_object_collision_map.hpp/.cpp`: cells, components, segments, surfaces | `Verif/Tagged.lean` | `Props/Tagged.lean` |
| `tagged_object_collision_map.hpp/.cpp`: SDFs | `Verif/TaggedSdf.lean` | `Props/TaggedSdf.lean`, `Props/FreeNamed.lean`, `Props/FreeNamedWorld.lean`, `Props/AnywhereNamed.lean` |
| `tagged_object_collision_map.cpp`: marker exports | `Verif/TaggedDisplay.lean` | `Props/TaggedDisplay.lean` |
| `std::map` keyed by object or segment id | `Verif/OMap.lean` | (used by the tagged modules) |
| `sdf_builder.cpp` | `Verif/Builder.lean` | `Props/Builder.lean` |
| `image_2d_sdf_node.cpp` (`update_sdf` and the images it publishes) | `Verif/Image2d.lean`, `Verif/ImageNode.lean` | `Props/Image2d.lean`, `Props/ImageExact.lean`, `Props/ImageTable.lean`, `Props/ImageNode.lean` (spec `Spec/Frames.lean`) |
| `sdf_tools_tutorial.cpp:33-60`: the map it builds | `Verif/Tutorial.lean` | `Props/Tutorial.lean` |
| `sdf_generation_node.cpp` | `Verif/GenNode.lean` | `Props/GenNode.lean` |
| distance field on flat grids (no new definitions) | `Verif/DistanceField.lean`, `Verif/SdfGen.lean` | `Props/DistancePlanar.lean`, `Props/FlatDistance.lean`, `Props/Enlarge.lean`, `Props/Mirror.lean` |
| loop iterations of `BuildDistanceField`, `ExtractSignedDistanceField` and `ComputeConnectedComponents` | `Verif/Work.lean` | `Props/Work.lean`, `Props/TaggedWork.lean` |
| IEEE 754 rounding of distances | `Verif/Ieee.lean` | `Props/Ieee.lean`, `Props/UnitLength.lean` |
| the same on bit patterns (no code of its own; spec `Spec/FloatBits.lean`) | `Verif/Ieee.lean`, `Verif/F32.lean` | `Props/FloatBits.lean`, `Props/StoredDistances.lean`, `Props/StoredBorder.lean` |
| overloads of the two collision maps that take a position | `Verif/Located.lean` | `Props/Located.lean` |
| `UpdateConvexSegments` from cells to labels | `Verif/ConvexSegments.lean` | `Props/ConvexSegments.lean`, `Props/IeeeFalse.lean` (counterexamples of C48, C68, C81, C82 with IEEE distances) |
| `dynamic_spatial_hashed_collision_map.cpp` | `Verif/Hashed.lean` | `Props/Hashed.lean` |
| complete display messages of all classes and of `sdf_generation_node.cpp` | `Verif/Markers.lean` | `Props/Markers.lean`, `Props/Viewer.lean` |
| `tagged_object_collision_map.cpp`: resample, surface marker | `Verif/TaggedExports.lean` | `Props/TaggedExports.lean` |
| `utils_2d.py`, `utils_3d.py` | `Verif/PyUtils.lean`, `Verif/QuatFloat.lean` (gradients and float32 conversions) | `Props/PyUtils.lean`, `Props/PyAccuracy.lean`, `Props/PyGradient.lean`, `Props/PyProduct.lean` |
| `3d_sdf_demo_rviz.py` | `Verif/PyDemo.lean` | `Props/PyDemo.lean` |
| `utils_3d_tensorflow.py` | `Verif/PyBatch.lean` | `Props/PyBatch.lean` |

Specifications that do not mention the model's helpers are in `Verif/Spec/*.lean` or at the top of the property file.

Not modelled: ROS start-up, parameters and publishing, the test executables, the displays and console output of the tutorial, time stamps of rviz messages, timing, threads (the library takes no locks and starts no threads), memory exhaustion, the chunk storage of the dynamic spatial-hashed grid (external). `GenerateUniqueColor` and floating-point colours are abstract functions.

## 4. Plan per property

| Property | Model and proof |
|---|---|
| C01 | grid state machine; refinement to a function from indices to cells, induction over the history |
| C02 | SDF state machine with lock flag; induction over the history |
| C03 | false as stated (reference to the OOB value escapes): negation on a concrete history, and the restriction to SetValue histories |
| C04 | invariant by induction over histories, using C05; writes through references kept across an update are a separate negative result |
| C05 | worklist invariant for the flood fill, then scan invariant |
| C06 | scan invariant (labels used so far are 1..n, first cells in order) |
| C07 | fuel bound for the worklist; frame lemma for occupancy |
| C08, C09 | invariant over all propagation steps |
| C10 | false: 4x1x5 counterexample evaluated in the kernel; positive part: exact along every chain of cells that share nearest sources, with closed-form corollaries; on flat grids within a factor 2 of the squared distance (from C85) |
| C11 | false: counterexample; positive part: monotone where the larger field is exact; on flat grids at most doubled (from C85) |
| C12 | undefined-behaviour flag in the model stays false (parity argument) |
| C13-C15, C18 | from C08, C09 and abstract rounding |
| C16 | false for all-free or all-filled maps: counterexample; partial otherwise |
| C17 | index arithmetic of the enlarged grid plus C13 and C10's positive part |
| C19-C23 | exact ordered field, case analysis and algebra |
| C24 | partial correctness by induction over iterations |
| C25, C26 | C26's sign claim is false outside: counterexample; inside part proved |
| C27 | fuel bound (each iteration visits a new cell) and fixed-point characterisation |
| C28-C31 | codec composition lemmas |
| C32, C33 | header decision logic; prefix rejection of the codecs |
| C34 | false on the top layer for special OOB cells: counterexample; characterisation proved |
| C35 | false for filled and unknown: counterexample; empty type proved |
| C36 | graph search invariant for an arbitrary enumeration order |
| C37 | false for boxes at least 2 thick: the call throws; slabs proved |
| C38 | case analysis over the six neighbours |
| C39 | identity proved; last claim false: counterexample |
| C40, C41 | from the SDF model |
| C42 | generic component theorem with eligibility |
| C43 | false: counterexamples |
| C44-C46 | list invariants |
| C47, C48 | state machine; C48 false: counterexample |
| C49 | two-pass invariant; finiteness in IEEE arithmetic by bounds on square roots of integers |
| C50 | index arithmetic of reshape and transpose |
| C51 | list invariant of the extraction loop on top of C05/C06 |
| C52 | case analysis over the neighbours; NaN is the exception and has its own theorem |
| C53 | false: a two-sided gap makes the loop oscillate for ever (invariant over all iterations); ends under a progress hypothesis |
| C54 | false: concrete field turned by a quarter turn; translation invariance proved |
| C55 | false: concrete byte string; own files proved from C28 |
| C56 | list invariant |
| C57 | order-independence of counting over permutations |
| C58 | map/list conversion lemmas |
| C59 | same worklist invariant as C04-C06, instantiated for tagged cells |
| C60 | equality of the two models after forgetting object ids |
| C61 | false: concrete map; proved on flat grids |
| C62 | false without free or named cells; proved otherwise |
| C63 | list invariants |
| C64 | list invariants plus a bound on sqrt 3 after rounding (exact and IEEE) |
| C65 | false: 8x14 image evaluated in the kernel; error factor by a potential argument over the four sweeps; exact below 13: the finished field is locally optimal in all eight directions, so the nearest pixel's distance survives along a walk of cells close to the segment; that no other integer point can displace it there is a finite table over the offsets shorter than 13 (`Props/ImageTable.lean`), checked in the kernel |
| C66 | false for uniform images; range analysis otherwise |
| C67 | from C13 and the state machine |
| C68 | false: two concrete histories; otherwise an invariant of the state machine |
| C69 | false: swapped limit, and rotated origins; limits of the other joints proved without rotation |
| C70 | index arithmetic of reshape and transpose |
| C71 | false: element count; exact acceptance condition proved |
| C72 | dual numbers track derivatives (induction over the arithmetic expression); the eight cells in use are locally constant |
| C73 | case analysis over the three sample points per axis |
| C74 | trilinear blend of affine corners is affine; the inverse of a rigid frame is its transpose |
| C75 | induction over the chunk list; a permutation of the chunks permutes the points |
| C76 | case analysis; the initialised flag is false: two constructors do not set it |
| C77 | last writer of each new cell; injectivity of the centre map for finer resolutions |
| C78 | filter of the surface list |
| C79 | index arithmetic of stacking; failing batches by case analysis |
| C80 | invariant over the passes of the loop; false for the out-of-bounds value the node uses |
| C81 | face values have the least magnitude, so no step leaves the grid; false for mixed faces and rotated maps |
| C82 | the shell has value 0; false when an object touches the shell |
| C83 | composition of C27, C41/C17 and C42 |
| C84 | every overload reduces to the index overload; induction over the history |
| C85 | invariant over the buckets in a planar chart: when a cell queued in bucket `b` for source `c` is reached, its neighbours nearer to `c` already hold values no larger than their distance to `c` (`Settled`), so no improvement is lost; induction on the Manhattan distance |
| C86 | relative error of one rounding from the distance to the nearest integer of the scaled significand; three roundings combined; C08, C10's positive parts and C85 for the distance itself |
| C87 | C50 composed with C86 |
| C88 | the dual-number blend evaluated at a centre, where the weights are 0 or 1; no derivative at a kink by comparing one-sided derivatives along the axis |
| C89 | local optimality: a column left stable by its two passes is optimal within itself (one-dimensional argument); with the provenance of values in the second half this gives optimality towards the previous column |
| C90 | invariant over histories: size 0 x 0 x 0 and zero counts; the component computation over no cells returns at once |
| C91 | per-axis nearest coordinates of a product (or its complement) are reached by straight and diagonal steps towards them; induction on the number of steps shows each intermediate cell has the same nearest source (`Chain`), then C10_exact_on_chains |
| C92 | the combined value is taken from the field over the enlarged grid; barriers of the grid correspond to opposite cells there by the index shift, then as C86 and C91 |
| C93 | a cube around a centre with the scale and pose of the map is the cell (linear arithmetic per axis), composed with the content theorems C44 to C46, C52, C56, C63, C64, C78 |
| C94 | with a translation the cube around the moved centre is the moved box; a rotation with cosine 3/5 as witness against the general claim |
| C95 | from the definition of a pass, C80 and C93; any other frame name is a counterexample |
| C96 | decimal numbers are injective and contain no underscore, so names can be split again |
| C97 | a viewer is a map from names to markers; messages with known names are overwritten; concrete histories as witnesses |
| C98 | the rounded shade is a monotone function of the quotient; its values at 0 and 1 are computed from the binary64 values of 0.8 and 0.2; absolute rounding errors below 2 |
| C99 | `DeserializeSelf` as a list of assignments that stops at an exception; refinement of the reader of C30; induction over the list; concrete torn object |
| C100 | a save is a truncation followed by a first part of the bytes; induction over the history of saves; C31 and C33 for the last one; concrete failing calls |
| C101 | forward error analysis: a calculus of computed values within a multiple of the unit roundoff of exact ones, applied to the interpolation formula; infinities by the NaN rules |
| C102 | the same for one subtraction and one or two multiplications; infinities by the NaN rules |
| C103 | the loop can only be left when the comparison fails; C101 turns that into an inequality between numbers; on infinite fields the comparison with NaN fails at once |
| C104 | C02 for the state; induction over the history for the replies |
| C105 | case analysis of the argument conversion; C31 and C99 for the C++ functions behind it |
| C106 | case analysis of the axes for any rounding; the error of two estimates (C101) and of one division, relative to the length of the stretch |
| C107 | the clamp is exact; the errors of the inset and of the upper limits are far below the margin; for translations the round trip is bounded directly, and far origins give a counterexample; the report of the boundary distance by composing with C108; nearest because clamping is, axis by axis, and the pose is nearly an isometry |
| C108 | rounding is monotone, so the least rounded distance is the rounded least distance; doubles are multiples of the smallest one, so a computed difference has the right sign; in the world by C112's round trip and near-isometry |
| C109 | the path theorem of C27 for comparisons of doubles; face values have the least magnitude, so with monotone rounding no step leaves an unrotated grid; a relative error calculus for the distance of two extrema; NaN propagates through the gradients of an infinite field |
| C110 | algebra of difference quotients and of the extraction; the path following depends only on flat cells and targets (`extremaMap_congr`); bounds on neighbouring distances (C85) bound the gradients |
| C111 | the ten products of the quaternion's components are linear in the entries of a rotation (rank-one identities, Gröbner reasoning by `grind`); error propagation (`Ap`) through two quaternion products |
| C112 | the computed grid-frame location is close to the exact one; the estimate varies by at most nine times the largest neighbour step per cell (`interpAt_lip`, induction over the pieces of the interpolant), so C101 carries over; the round trip error is the deviation of the stored inverse plus two products |
| C113 | the error calculus of C101 applied to values and derivatives side by side gives the slope of the piece that was picked (`estGridD_ap`); the location is moved by at most the rounding to a point ahead of which that piece is the interpolant (`axis_pick`, `ahead`); away from inner centre planes the one-sided derivative is the derivative of the estimate; two counterexamples |
| C114 | a coordinate that is not finite makes every product and sum it enters not finite (`mul_notFinite`, `add_notFinite`), so each grid-frame coordinate is rejected by the lookup; case analysis of the boundary distance |
| C115 | the signed distance exists and is 1-Lipschitz (a segment from a free to a filled cube crosses a common boundary point: connectedness); the corrected value of a cell is within `(sqrt 3 - 1) / 2` cells of the signed distance of its centre; a blend of the values at the eight centres adds at most `sqrt 3 / 2` cells (convexity of the square); eight corners of one class need the lower bound only, mixed corners are below the squared distance 8 where C86 is exact; for flat maps the factor sqrt 2 of C10/C86 passes through the same argument; then C112 for the rounding |
| C116 | the quaternion of a pure translation is computed exactly, and its product keeps vectors of numbers and turns a vector with an infinite or NaN component into NaNs; each axis (central, one-sided or absent) by `quotient_close`; layout by C50; magnitudes by C86; the bound 9/4 by the neighbour bound of C85 with rounding |
| C117 | each of the four conversion formulas, with a pivot of at least 1/2, represents the rotation exactly (`Q4.represents_pivots`); the comparisons on rounded entries still leave such a pivot; error propagation through `sqrt`, reciprocal and products gives a quaternion within 2^-45, whose rotation matrix is within 2^-38; then C111 |
| C118 | a matrix with columns orthonormal up to 2^-48 keeps distances up to 2^-40 (`near_isometry`), so signed distances in the grid frame and in the world agree (`world_grid`); the computed inverse takes the query back to its grid-frame location up to 2^-15 cells (`row_trip`), and signed distances are 1-Lipschitz (`sd_lip`); then C115, with the transforms and the lookup of C112 |
| C119 | C40 gives the list of fields, each the extraction with the fill rule of one object; that rule answers the product predicate of the object, so `C118_product` applies to each; an obstacle point of the scene lies in a cell of some listed object |
| C120 | a coordinate inside the volume is truncated to the index of its voxel; writing a list of entries into an array sets exactly those (`fold_set`); C50 for the signs of the distances |
| C121 | the published points and the flattened array are paired by position: row `[a, b, c]` of the points has the coordinates `(b, a, c)` (`mem_shown`), which is the entry `[b, a, c]` only if one of the two axes has length 1 |
| C122 | the array and the field hold the same numbers (`cells2`, `cells3`), the fill rule of the wrapper answers a product, so C91 applies; C116 for the gradient beside a pixel |
| C123 | walk along a shortest axis path to the cell of the other class: each step changes the value by at most 1.01 cells, the last cell of the class has the exact value (C86), and the length of the path is at most `sqrt 3` times the distance; then interpolation (C115) and the world frame (C118); in the outermost half cells (`C123_anywhere`) the extrapolation is compared with the interpolant at the clamped location |
| C124 | the rounded inverse transform moves a position by less than a thousandth of a cell (C112), so the cell found contains it; the loop over positions by induction; then the triangle inequality in the world with C118 and C123 |
| C125 | neighbouring stored values differ by at most 1.01 cells, also across the surface because of the half-cell shift; so the interpolation changes by at most 1.01 per axis, and √3 times that in distance; C112 for the transforms, C115 for the rounding |
| C126 | partial: fails near corners of obstacles (`C126_false`, one filled cell). In a field that passes the check of C123 the interpolation in the outermost half cells, which extrapolates, differs from the nearest location between the cell centres by at most 3.6 cells; C123 there, C103 for what the loop ends with, C112 for the transforms |
| C127 | the loops and the write by location are run on an empty map of any size; straight paths in the free space show that it is one region, all six neighbours of the single cell are free. Distances: the nearest free cell is straight ahead, where the transform is exact (C91_straight) |
| C128 | every point of a path is within half the spacing of a waypoint; triangle inequality with the clearance of C123 (any field that passes the check) or C118 (product maps). `C128_accepts` is the converse from C123's lower bound |
| C129 | every value is bounded by the steps to a barrier (induction in the enlarged grid with C92's exactness next to a barrier), in flat maps by C92's factor; interpolating a bound that is linear along an axis gives the bound by the distance to a face, the blending lemma of C115 the one to obstacles; then C112/C118's rounding of the world query. `C129_product` shows that maps without obstacles pass the check. In the outermost half cells the extrapolation is compared with the nearest location between the cell centres, as in C123 |
| C130 | C124's description of the marked cells turns the bounds of C129, which are about points of filled cells, into bounds about the marked positions; then the path argument of C128; in the outermost half cells with C129's bounds there |
| C131 | The way of a centre to the world and back moves it by a small fraction of a new cell (C112), so it is looked up in a cell whose cube contains it up to a thousandth of a cell; the last writer of each new cell gives its contents |
| C132 | The last mark in a cell decides its contents, so an obstacle cell carries the id of a mark in its cube; the argument of C130 with the cells of the chosen objects, and for all objects with the field of the object that has the cell; in the outermost half cells with C129's bounds there |
| C133 | The predicates of the two fields equal those of the extractions for all and for the nonzero ids on every cell of the map, so the fields are the same; the choice between them follows from their signs; then C86 |
| C134 | Near obstacles and on flat maps the stored values are tied to the true distances (C10, C86), which a congruence keeps; kernel-evaluated counterexample for the rest |
| C135 | The two runs on a flat map are related bucket by bucket: the run on the larger map processes the images of the entries of the other one in the same order, and entries of the added cells never write into the original part (when they are processed, the cells there already hold a value at least as small); kernel-evaluated counterexample in 3D |
| C136 | Discrete Gauss-Bonnet: the corner count of the code at a lattice point is the point's share of the Euler number (256 local patterns), summed over all points; visited points are characterised exactly, hidden boundary points give the exception, visited inner points are extra pieces |
| C137 | The file as a list of pieces with known lengths; each member is the piece with its number; every byte position lies in one of the words, so the layout determines the file |
| C138 | Simulation between the byte-level world (memory, files, messages) and a specification in which files hold objects (`Spec/Sessions.lean`); the records of the serializers are joined with the operational models of the three map types |
| C139 | `ieee` is defined by arithmetic on reals (quantum, floor, tie rule); proved equal in effect to a specification on bit patterns (`Spec/FloatBits.lean`: values of patterns, nearest, even, overflow) through the order isomorphism between magnitudes and patterns |
| C140 | Joins C86 and C92 (accuracy without and with border), C13 (sign), C137 (layout), C138 (programs) and C139 (bits) |
| C141 | Counts of loop iterations over the run of the model; every flood fill step labels one unlabelled cell; invariants of the queue: a cell waits in a bucket once, waiting entries lie in a window of width 2 sqrt b + 3 above the current bucket, and a cell whose bucket has come gets no later entry |
| C142 | The squared distances behind a field do not depend on the cell size; in the normal range rounding commutes with powers of two; stored values are multiples of a common unit, so their differences do not underflow and the factors cancel in the quotient; order from monotonicity of every rounding |
| C143 | The members of the node after an image are those of C49's `update_sdf` in the range that is published, whatever was there before, because every cell is overwritten and the extrema are reset; then C49 and C66. False for several bytes per pixel: a `bgr8` row of a black and a white pixel |
| C144 | C133 gives the kind of value of every cell (distance to an obstacle, minus the distance to the outside of the named objects, 0); the interpolation lemmas of C115 and C129 carry over because obstacle corners never raise the interpolant; steps between neighbours give the factor (C123), C112 the way into the world |

## 5. Disagreements between code and properties

Each entry is a proved theorem about a concrete witness (or about all inputs of a class), not a suspicion.

- C02, C04: a reference obtained from `GetMutable` earlier bypasses the lock and the components-valid flag (`C02_held_reference_bypasses_lock`, `C04_held_reference_makes_flag_stale`).
- C03: `GetMutable` out of bounds hands out a reference to the OOB value; writing through it changes later OOB reads, on locked SDFs too (`sdf.hpp:171-196`; `C03_oob_value_can_change`, `C03_sdf_locked_oob_can_change`).
- C10, C11: the bucket-queue distance transform is not exact; adding an obstacle can increase a reported distance (`C10_false`, `C11_false`).
- C16, C62: extrema are wrong when one of the two classes of cells is missing (`C16_false`, `C62_false`).
- C26: outside the volume the sign of `DistanceToBoundary` is that of the smallest displacement and can be positive (`C26_false`).
- C27: rebuilding the extrema map into a larger map would be undefined behaviour (`C27_larger_map_is_ub`).
- C34: the component-surface test compares `z` with `nz` instead of `nz - 1`; it is only harmless if no cell has the OOB component (`collision_map.hpp:108`; `C34_top_layer_can_be_missed`).
- C35: surfaces of filled and unknown components are read with wrong indices (`collision_map.cpp:723`, `743`; three witnesses).
- C37: hole computation throws for every solid box at least two cells thick (`C37_false_for_every_thick_box`).
- C39: resampling to a finer resolution leaves holes with the OOB value (`C39_finer_leaves_holes`); resampling to a coarser one can lose an obstacle (`C39_coarser_loses_obstacle`).
- C43: the convex-segments flag is uninitialised after construction and stays set after `SetValue` (`C43_fresh_flag_is_junk`, `C43_flag_goes_stale`).
- C48: the result of the planning-scene service call is ignored (`C48_false`, `C48_failed_call_ignored`).
- C52: cells with NaN occupancy are never surface cells (`C52_nan_not_surface`).
- C53: projection out of collision can loop for ever in a narrow gap (`C53_false`).
- C54: the local extrema map steps in grid indices along the world-frame gradient (`C54_false`).
- C55: loading does not check the number of stored cells (`C55_false`).
- C61: the tagged map's component topology uses `(x,y,y)` and `(x,z,z)` indices (`tagged_object_collision_map.cpp:458, 478, 519, 539`; `C61_topology_differs`).
- C65: the 2D transform is not exact (`C65_false`: 169 reported as 170); it is exact below a distance of 13 pixels.
- C66: for uniform images inf/inf is converted to `uint8_t` (`C66_uniform_undefined`).
- C143: `at<uint8_t>` on a picture with several bytes per pixel reads the leftmost columns only (`C143_false`, `C143_ignored`).
- C68: the OOB float is converted to `uint8_t`; a default-constructed builder dereferences a null pointer (`C68_oob_undefined`, `C68_default_undefined`).
- C69: upper limit and velocity of one joint are swapped (`C69_false`); with a rotated origin the other limits can be too small as well (`C69_rotated_false`).
- C71: `gradient_to_np` raises for every non-empty gradient grid (`C71_false`).
- C76: two of the three constructors of the spatial-hashed map leave `initialized_` unset, so `IsInitialized` reads an indeterminate value (`C76_initialized_is_junk`).
- C80: the generator node passes `INFINITY` as out-of-bounds value, so its first pass is undefined (`C80_node_undefined`).
- C81: with a virtual border, cells on the grid's face beside a cell of the other class stay unsegmented (`C81_false`); in a rotated map the world-frame gradient is followed in the grid frame (`C81_false_rotated`).
- C82: a path can run through the unnamed shell off the grid (`C82_false`).
- C94: the display of a hashed map gives its markers the identity as pose and moves the centres only, so the cubes of a rotated map are not its cells (`C94_rotated_map_misdrawn`).
- C95: the generator node publishes the collision map in the frame `"base"` whatever frame is configured (`sdf_generation_node.cpp:95`; `C95_wrong_frame`).
- C97: displays that leave out empty markers never delete the old ones, so removed objects and split chunks stay visible (`C97_stale_object`, `C97_stale_chunk`); the full and the contour display of tagged maps use one name and hide each other (`C97_contour_hides_full`).
- C98: the display of a field divides infinity by infinity: cells with infinite values, in particular all cells of the field of a map without obstacles, get colours that are not numbers (`C98_not_finite`, `C98_no_obstacle`); NaN cells are drawn like cells on a surface.
- C99: `DeserializeSelf` assigns each member as soon as it is read. If the buffer ends after the cells it throws and leaves an object with the new cells and the old cell counts, whose valid indices lie outside of the storage (`C99_torn`). The static load functions are not affected, because they fill a fresh object.
- C100: `SaveToFile` never tests the stream. A path that cannot be opened and a full device go unnoticed, and an interrupted save has already destroyed the earlier file (`C100_unnoticed`, `C100_full_device`).
- C101: on a map whose cells are all free or all filled the stored distances are infinite. `EstimateDistance` then returns NaN with the flag `true` at every location inside the grid (`C101_infinite`, `C101_no_obstacle`).
- C102: next to cells that share an infinite distance, all components of the gradient are NaN (`C102_infinite`, `C102_no_obstacle`).
- C103: on a map without free cells `ProjectOutOfCollisionToMinimumDistance` returns its argument, although it is in collision, because `NaN <= minimum` is false (`C103_filled`).
- C105: called from Python, `SerializeSelf` fills a copy of the list it is given, the message methods always raise `TypeError`, and `LoadFromFile` can only be called on the class (`C105_serialize_lost`, `C105_messages_raise`, `C105_load_on_object_raises`).
- C106: a window that vanishes when added to the coordinates makes every component of `GetSmoothGradient` NaN (0/0), and so does a map without obstacles (`C106_tiny_window`, `C106_no_obstacle`).
- C107: in a grid very far from the world origin the margin of 1e-4 cells is lost, and `ProjectIntoValidVolume` returns locations outside all cells (`C107_far_origin`).
- C109: as C81, in IEEE arithmetic with a cell size of 1 and no rotation (`C109_false`).
- C110: `GradientIsEffectiveFlat` and `GetNextFromGradient` compare gradients with a length; local extrema and convex segments depend on the unit, and for cell sizes of 33 or more nothing moves (`C110_false`, `C110_coarse`).
- C120: in `point_cloud_to_voxel_grid` a point up to one cell below the corner of the volume sets the first voxel, and a point further below sets a voxel at the far side (`C120_false`).
- C121: `get_grid_points` swaps the first two axes and subtracts the corner, so the demo shows distances in the wrong voxels (`C121_demo_false`), or outside the volume (`C121_corner_false`); its arrows have two components swapped (`C121_arrows_false`).

Observed while modelling, stated in the notes of the theorems: `ExportForDisplayCollisionOnly` does not clamp alpha (C56); `compute_gradient` and `sdf_to_np` are indexed `[x,y]` while `compute_sdf_and_gradient` is `[y,x]` (C70); a zero window in `GetSmoothGradient` divides by zero (C73).

Read but not modelled, because the contract of the external function does not cover it: `bindings.cpp:85` instantiates `DeserializeFixedSizePOD` with `std::vector<double>`, which is not trivially copyable. Copying the bytes of a buffer over a vector would be undefined behaviour, so nothing is claimed about the Python function `DeserializeFixedSizePODd`.

## 6. Axioms per theorem

From `#print axioms` on every theorem of the manifest.

- no axioms: `C43_fresh_flag_is_junk`, `C76_flags_partial`, `C76_initialized_is_junk`, `C90_fresh_flags`.
- `propext` only: `C01_setValue_result`, `C02_call_result`, `C03_oob_value_can_change`, `C03_sdf_oob_stable_partial`, `C04_held_reference_makes_flag_stale`, `C10_false`, `Serial.Py.C105_serialize_lost`, `Serial.Py.C105_messages_raise`, `Serial.Py.C105_load_on_object_raises`, `C137_messages`, `C34_top_layer_can_be_missed`, `C35_filled_surface_missed`, `C35_unknown_surface_missed`, `C43_flag_goes_stale`, `C44_sizes`, `C52_nan_not_surface`, `C90_counts_before_update`, `C99_loads`, `C99_torn`.
- `propext`, `Quot.sound` only: `C01_read_after_write`, `C01_fresh`, `C02_read_last_unlocked_write`, `C02_locked_is_frozen`, `C02_held_reference_bypasses_lock`, `C03_oob_stable_partial`, `C03_sdf_locked_oob_can_change`, `C104_new_field`, `C11_false`, `C12_flag_sticky`, `C134_order`, `C23_shape`, `C23_location`, `C24_clear_start_unchanged`, `C26_flag`, `C32_rejects`, `C33_interrupted_compressed_save`, `C45_export_for_display`, `C45_component_display`, `C45_separate_colours`, `C54_translation_partial`, `C56_collision_only`, `C58_index_map`, `C60_same_queries`, `C61_topology_differs`, `C77_components_not_valid`, `Py.C79_failures`, `C88_location`, `C90_sdf`, `C90_sdf_fresh`, `C90_collision_map`, `C90_tagged_map`, `C97_sdf`, `C97_collision_map`, `C97_tagged`, `C97_components_and_surfaces`, `C99_replaces`, `C99_cut_in_cells_partial`.
- `propext`, `Classical.choice`, `Quot.sound`: the other 460 theorems of the manifest.
