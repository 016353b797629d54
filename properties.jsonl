{"id": "C01", "title": "Collision map: a read returns the last successful write", "statement": "For a CollisionMapGrid and any history of SetValue calls, GetImmutable(i) on an in-bounds index returns the cell of the most recent SetValue(i, ..) in the history, or the construction-time cell if there was none; SetValue returns true exactly on in-bounds indices, and an out-of-bounds SetValue changes no stored cell.", "quantifier": "all grid dimensions, all initial contents, all finite sequences of SetValue calls with arbitrary (also negative or out-of-bounds) indices, all queried indices", "why_tests_cant": "aliasing between two different cells (index arithmetic) can appear at any pair of indices in any grid shape; tests only visit a few", "anchors": ["include/sdf_tools/collision_map.hpp:CollisionMapGrid::SetValue", "include/sdf_tools/collision_map.hpp:CollisionMapGrid::GetMutable"]}
{"id": "C02", "title": "A locked SDF cannot be changed through its setters", "statement": "While a SignedDistanceField is locked, every SetValue call returns false and no sequence of SetValue or GetMutable-then-write calls changes the value GetImmutable returns at any in-bounds index; after Unlock the setters work again exactly on in-bounds indices.", "quantifier": "all grids, all histories of Lock/Unlock/SetValue/GetMutable-write, all indices", "why_tests_cant": "it is a claim about every history of calls, not about one call", "anchors": ["include/sdf_tools/sdf.hpp:SignedDistanceField::Lock", "include/sdf_tools/sdf.hpp:SignedDistanceField::SetValue", "include/sdf_tools/sdf.hpp:SignedDistanceField::GetMutable"]}
{"id": "C03", "title": "Out-of-bounds reads keep returning the construction-time OOB value", "statement": "GetImmutable at an out-of-bounds index always returns (OOB value given at construction, false), whatever the history of SetValue and GetMutable-then-write calls, locked or not.", "quantifier": "all histories of setter calls and of writes through references handed out by GetMutable, all out-of-bounds indices", "why_tests_cant": "needs every history, including writes through a reference returned together with 'false'", "anchors": ["include/sdf_tools/sdf.hpp:SignedDistanceField::GetMutable", "include/sdf_tools/collision_map.hpp:CollisionMapGrid::GetMutable"]}
{"id": "C04", "title": "The components-valid flag is never stale", "statement": "After any history of SetValue, GetMutable-then-write and UpdateConnectedComponents calls on a freshly constructed CollisionMapGrid, whenever AreComponentsValid() is true (i.e. GetNumConnectedComponents().second is true) the stored component labels are exactly the labels a fresh recomputation on the current occupancies would produce, and the reported number is the number of components.", "quantifier": "all grids, all finite histories of mutating calls", "why_tests_cant": "history property; a single missed invalidation in one of many mutators breaks it only after a particular order of calls", "anchors": ["include/sdf_tools/collision_map.hpp:components_valid_", "src/sdf_tools/collision_map.cpp:CollisionMapGrid::UpdateConnectedComponents"]}
{"id": "C05", "title": "Connected components are exactly the face-connected regions", "statement": "After UpdateConnectedComponents, two in-bounds cells have the same component label if and only if there is a path of face-adjacent in-bounds cells between them along which 'occupancy > 0.5' never changes.", "quantifier": "all grid dimensions and all occupancy assignments (including NaN and exactly 0.5), all pairs of cells", "why_tests_cant": "a path can be arbitrarily long and wind arbitrarily; an equivalence over all grids cannot be sampled", "anchors": ["include/sdf_tools/topology_computation.hpp:ComputeConnectedComponents", "include/sdf_tools/topology_computation.hpp:MarkConnectedComponent", "src/sdf_tools/collision_map.cpp:CollisionMapGrid::UpdateConnectedComponents"]}
{"id": "C06", "title": "Component labels are 1..n without gaps, numbered by first cell in scan order", "statement": "After UpdateConnectedComponents returning n, every in-bounds cell has a label in 1..n, every label in 1..n is used, GetNumConnectedComponents returns (n, true), and label a < b whenever the first cell (x-major scan) of component a precedes the first cell of component b.", "quantifier": "all grids with fewer than 2^32 cells, all occupancies", "why_tests_cant": "ranges over all grids; gaps or duplicated labels would only show for particular shapes", "anchors": ["include/sdf_tools/topology_computation.hpp:ComputeConnectedComponents", "include/sdf_tools/collision_map.hpp:CollisionMapGrid::GetNumConnectedComponents"]}
{"id": "C07", "title": "Component labelling terminates and preserves occupancy", "statement": "UpdateConnectedComponents terminates on every grid, touches no occupancy value, and calling it again returns the same number and leaves the map unchanged.", "quantifier": "all grids, occupancies and previous (arbitrary, even garbage) component labels", "why_tests_cant": "termination of a worklist algorithm on all inputs is not testable", "anchors": ["include/sdf_tools/topology_computation.hpp:MarkConnectedComponent", "src/sdf_tools/collision_map.cpp:CollisionMapGrid::UpdateConnectedComponents"]}
{"id": "C08", "title": "Distance field never under-estimates: every recorded distance is the distance to a real source cell", "statement": "For every cell whose distance-field entry is finite, the recorded squared distance equals the exact squared Euclidean cell distance to the recorded closest point, and that closest point is one of the given source cells; hence the reported distance is never smaller than the true distance to the nearest source.", "quantifier": "all grid dimensions, all lists of in-bounds source points (with duplicates, in any order), all cells", "why_tests_cant": "must hold for every obstacle arrangement; wrong closest-point propagation appears only for special layouts", "anchors": ["include/sdf_tools/sdf_generation.hpp:BuildDistanceField"]}
{"id": "C09", "title": "Distance is zero exactly on source cells", "statement": "The distance field is 0 at a cell if and only if the cell is one of the given source points; all other cells have squared distance at least 1 (or infinite).", "quantifier": "all grids, all source lists, all cells", "why_tests_cant": "the SDF sign at every cell depends on it for every obstacle layout", "anchors": ["include/sdf_tools/sdf_generation.hpp:BuildDistanceField"]}
{"id": "C10", "title": "Distance field is the exact Euclidean distance transform", "statement": "For every in-bounds cell the recorded squared distance equals the minimum over all source points of the squared Euclidean cell distance.", "quantifier": "all grids, all non-empty source lists, all cells", "why_tests_cant": "the propagation is known to be approximate only for rare layouts; random tests pass more than 98% of the time", "anchors": ["include/sdf_tools/sdf_generation.hpp:BuildDistanceField", "include/sdf_tools/sdf_generation.hpp:MakeNeighborhoods"]}
{"id": "C100", "title": "A file holds the last saved map, whatever failed or crashed in between", "statement": "After any history of SaveToFile calls to any paths, in which calls may be refused by the operating system, run out of space or be interrupted at any byte: if the last call for a path returned normally, LoadFromFile returns its map; if it was interrupted, LoadFromFile returns its map or the map that was there before; LoadFromFile never returns any other map.", "quantifier": "all histories of saves, all paths, all failures and crash points, all maps, compressed and uncompressed", "why_tests_cant": "crash points and device failures range over every byte of every file and every earlier history", "anchors": ["src/sdf_tools/sdf.cpp:SaveToFile", "src/sdf_tools/collision_map.cpp:SaveToFile", "src/sdf_tools/tagged_object_collision_map.cpp:SaveToFile", "src/sdf_tools/sdf.cpp:LoadFromFile"]}
{"id": "C101", "title": "Distance estimates in floating point are numbers close to the exact interpolation", "statement": "For every location inside the grid, EstimateDistance, computed in IEEE double arithmetic from the stored float distances, returns a number flagged valid that differs from the exact interpolation by at most the number of cells along the longest side times 2^-40 times the largest stored distance (plus half a cell).", "quantifier": "all fields, all cell sizes, all locations inside the grid", "why_tests_cant": "rounding errors, cancellation and infinities depend on every value of the field and every location", "anchors": ["include/sdf_tools/sdf.hpp:EstimateDistance4d", "include/sdf_tools/sdf.hpp:EstimateDistanceInterpolateFromNeighborsGridFrame", "include/sdf_tools/sdf.hpp:TrilinearInterpolateDistance", "include/sdf_tools/sdf.hpp:BilinearInterpolate"]}
{"id": "C102", "title": "Gradients in floating point are close to the exact central differences", "statement": "For every cell, GetGradient, computed in IEEE arithmetic from the stored float distances, has the same number of components as the exact one-sided or central difference, and each component is a number with relative error at most 2^-23, apart from an absolute error far below the float step of the smallest distances.", "quantifier": "all fields, all cell sizes, all cells, with and without edge gradients", "why_tests_cant": "rounding and infinities depend on every value of the field", "anchors": ["include/sdf_tools/sdf.hpp:GetGridAlignedGradient"]}
{"id": "C103", "title": "A projected location keeps the minimum distance in floating point", "statement": "Whenever ProjectOutOfCollisionToMinimumDistance returns a location, computed in IEEE arithmetic, the location lies in the grid and its distance estimate is a number greater than the requested minimum distance.", "quantifier": "all fields, all start locations, all minimum distances and step multipliers, any number of iterations", "why_tests_cant": "the number of steps and the values met on the way depend on the whole field; comparisons with values that are not numbers only show on particular maps", "anchors": ["include/sdf_tools/sdf.hpp:ProjectOutOfCollisionToMinimumDistance4d", "include/sdf_tools/sdf.hpp:ProjectOutOfCollisionToMinimumDistanceGridFrame"]}
{"id": "C104", "title": "A new field answers every history of locks and writes correctly", "statement": "A SignedDistanceField constructed with a size and a value is unlocked and holds the value in every cell. Along every history of Lock, Unlock, SetValue (by index or by location) and GetMutable-then-write calls, each write reports success exactly when it addresses a cell of the grid and the field is not locked at that moment; afterwards every cell reads as the last value written to it while the field was unlocked, or the initial value, and IsLocked reports the last Lock or Unlock.", "quantifier": "all sizes, all values, all histories of calls, every call in the history", "why_tests_cant": "replies depend on the whole earlier history", "anchors": ["include/sdf_tools/sdf.hpp:SignedDistanceField", "include/sdf_tools/sdf.hpp:SetValue", "include/sdf_tools/sdf.hpp:GetMutable", "include/sdf_tools/sdf.hpp:Lock", "include/sdf_tools/sdf.hpp:Unlock", "include/sdf_tools/sdf.hpp:IsLocked"]}
{"id": "C105", "title": "Fields can be stored and restored from Python", "statement": "From Python, SaveToFile followed by LoadFromFile returns the saved field, SerializeSelf appends the field to the list it is given, DeserializeSelf restores a serialized field from a list, and GetMessageRepresentation and LoadFromMessageRepresentation convert a field to a message and back; no call changes any other object, list or file.", "quantifier": "all fields, lists, paths, argument lists and states of the interpreter's objects and files", "why_tests_cant": "argument conversion decides for every combination of argument values; an effect that is silently lost does not show in a return value", "anchors": ["src/sdf_tools/bindings.cpp:PYBIND11_MODULE", "src/sdf_tools/sdf.cpp:SerializeSelf", "src/sdf_tools/sdf.cpp:DeserializeSelf", "src/sdf_tools/sdf.cpp:SaveToFile", "src/sdf_tools/sdf.cpp:LoadFromFile"]}
{"id": "C106", "title": "Smoothed gradients in floating point are close to exact difference quotients", "statement": "For every location and non-zero window, GetSmoothGradient, computed in IEEE double arithmetic, returns an empty vector outside the grid, throws exactly when on some axis both moved locations leave the grid, and otherwise returns three numbers, each close to the difference quotient of the exact interpolation between the two locations compared.", "quantifier": "all fields, locations, windows and axes", "why_tests_cant": "rounding errors and windows that vanish against the coordinate depend on all the values; a test samples few of them", "anchors": ["include/sdf_tools/sdf.hpp:GetSmoothGradient", "include/sdf_tools/sdf.hpp:ComputeAxisSmoothGradient"]}
{"id": "C107", "title": "Projection into the volume keeps the distance to the faces in floating point", "statement": "For every location with finite coordinates, ProjectIntoValidVolumeToMinimumDistance, computed in IEEE double arithmetic, returns a location that the grid places strictly inside its volume, at more than the requested distance from every face (when the volume has room for it). A location that is already at least the requested distance and a thousandth of a cell from every face is returned unchanged. DistanceToBoundary reports the returned location to be inside, at no less than the requested distance. It is the nearest one: no location at least the requested distance and a thousandth of a cell from every face is closer to the given location by more than a five-hundredth of a cell. Projecting the returned location again moves it by at most a thousandth of a cell.", "quantifier": "all locations, side lengths, cell sizes, distances and grid origins", "why_tests_cant": "the margin of 1e-4 cells has to absorb the rounding of two transforms for every origin and location", "anchors": ["include/sdf_tools/sdf.hpp:ProjectIntoValidVolumeToMinimumDistance4d", "include/sdf_tools/sdf.hpp:ProjectIntoValidVolume4d"]}
{"id": "C108", "title": "Boundary distance in floating point is the exact distance rounded once", "statement": "For every location that the grid places inside its closed volume, DistanceToBoundary returns the exact distance to the nearest face rounded once to double, with flag true; for every other location, including infinite coordinates and NaN, the flag is false. For a map placed in the world by any rotation and translation, a location at least a thousandth of a cell inside all faces gets flag true and a value that is the distance in the world to the outside of the volume, up to a thousandth of a cell; a location at least a thousandth of a cell outside a face gets flag false.", "quantifier": "all locations and side lengths that are doubles", "why_tests_cant": "the sign of a rounded difference and the choice of the nearest face must be right for all pairs of doubles, down to the smallest ones", "anchors": ["include/sdf_tools/sdf.hpp:DistanceToBoundary4d"]}
{"id": "C109", "title": "Convex segmentation in floating point", "statement": "With all arithmetic in IEEE float and double, ComputeLocalExtremaMap assigns every cell the end of its path (its own centre if flat, infinity if the path leaves the grid), and UpdateConvexSegments numbers exactly the classes of linked free or named cells whose extrema agree to the threshold, up to a 2^-30 part of a cell. With the virtual border, in a grid that is not rotated, every free or named cell gets a segment.", "quantifier": "all maps, cell sizes, thresholds, rotations and border settings, including maps whose field is infinite", "why_tests_cant": "comparisons of rounded gradients decide every step of a path, infinite fields make gradients NaN, and the rounded distance must be symmetric for every pair of cells", "anchors": ["include/sdf_tools/sdf.hpp:ComputeLocalExtremaMap", "include/sdf_tools/sdf.hpp:FollowGradientsToLocalExtremaUnsafe", "include/sdf_tools/tagged_object_collision_map.hpp:UpdateConvexSegments"]}
{"id": "C11", "title": "Adding obstacles never increases a reported distance", "statement": "If source list B contains every point of source list A (same grid), then at every cell the distance field of B is at most that of A.", "quantifier": "all grids, all pairs of source lists A subset of B, all cells", "why_tests_cant": "relates two runs on all pairs of inputs; planners rely on it as monotone safety", "anchors": ["include/sdf_tools/sdf_generation.hpp:BuildDistanceField"]}
{"id": "C110", "title": "Local extrema and convex segments do not depend on the unit of length", "statement": "Giving cell size, distances and threshold in another unit leaves gradients, the map of local extrema and the result of UpdateConvexSegments unchanged.", "quantifier": "all fields, maps, units, origins, thresholds and border settings (exact arithmetic)", "why_tests_cant": "a test fixes one unit; the comparison of gradients with a length shows only in other units", "anchors": ["include/sdf_tools/sdf.hpp:ComputeLocalExtremaMap", "include/sdf_tools/sdf.hpp:GetGradient", "src/sdf_tools/sdf.cpp:GradientIsEffectiveFlat", "src/sdf_tools/tagged_object_collision_map.cpp:UpdateConvexSegments"]}
{"id": "C111", "title": "GetGradient answers in the world frame", "statement": "For every field of finite distances in a grid that is placed by any rotation and translation, GetGradient returns the one-sided or central differences of the field turned by the rotation of the grid: exactly in real arithmetic; in IEEE arithmetic every component is a number whose error is at most 2^-21 of the largest difference, plus the error of the quaternion that Eigen derives from the rotation, plus an amount far below the float step per cell.", "quantifier": "all fields, cell sizes, cells, rotations and translations, with and without edge gradients", "why_tests_cant": "the conversion to a quaternion has four branches that depend on the rotation, and the errors of some fifty roundings depend on every operand", "anchors": ["include/sdf_tools/sdf.hpp:GetGradient", "include/sdf_tools/sdf.hpp:GetGridAlignedGradient"]}
{"id": "C112", "title": "Queries by world location survive the rounding of the grid's pose", "statement": "For a grid placed by any rotation and translation, in IEEE arithmetic: EstimateDistance at a world location inside the volume is a number, flagged valid, that differs from the estimate in exact arithmetic by at most N/2^40 of the largest distance plus M/2^44 of the largest step between neighbouring cells, where N is the number of cells per axis and M the distance of the location and the origin in cells; locations outside the volume (by more than rounding can see) are reported as outside. The world location of a cell's centre is found to be in that cell and gets that cell's corrected distance up to rounding. ProjectIntoValidVolume returns a location at more than the requested distance from every face when the origin is at most 2^26 cells away.", "quantifier": "all fields of finite distances, poses, cell sizes from 2^-100 to 2^100, locations, cells, and orders of evaluation of the matrix products", "why_tests_cant": "the error depends on every entry of the pose, its computed inverse and the location; near faces and cell borders a last-bit difference picks another cell", "anchors": ["include/sdf_tools/sdf.hpp:EstimateDistance4d", "include/sdf_tools/sdf.hpp:EstimateDistanceInterpolateFromNeighbors", "include/sdf_tools/sdf.hpp:ProjectIntoValidVolumeToMinimumDistance4d"]}
{"id": "C113", "title": "The automatic-differentiation gradient is the derivative of the estimate up to rounding", "statement": "In IEEE arithmetic, GetAutoDiffGradient at a world location inside the volume returns three numbers. They differ from the one-sided derivative of the interpolated distance, at a location within rounding of the query, by at most N/2^39 of the largest distance over the cell size (N cells per axis); when the query is not within rounding of a plane of inner cell centres they are the gradient of EstimateDistance at the query, with M/2^41 added for a location M cells away. Locations outside give an empty result. Queries by cell index give the differences to the next cells, as in exact arithmetic.", "quantifier": "all fields of finite distances, poses, cell sizes from 2^-100 to 2^100, locations, and the two orders of evaluation of the matrix products", "why_tests_cant": "the product rule and the trilinear formula mix about a hundred roundings, and at cell centres the derivative jumps, so a last-bit difference in the location changes the result completely", "anchors": ["include/sdf_tools/sdf.hpp:GetAutoDiffGradient", "include/sdf_tools/sdf.hpp:EstimateDistanceInterpolateFromNeighbors"]}
{"id": "C114", "title": "Queries at NaN or infinite locations are reported as outside", "statement": "For every pose and every stored field, a query at a world location with a coordinate that is NaN or infinite is handled as a query outside the volume: EstimateDistance returns the out-of-bounds value flagged invalid, GetSmoothGradient and GetAutoDiffGradient return an empty vector, and DistanceToBoundary reports outside with no finite distance. None of them throws.", "quantifier": "all poses, fields, cell sizes and locations with at least one coordinate that is not finite", "why_tests_cant": "a single infinite coordinate meets zero and nonzero entries of the rotation in every combination (NaN or either infinity per axis), and comparisons with NaN take the other branch", "anchors": ["include/sdf_tools/sdf.hpp:EstimateDistance4d", "include/sdf_tools/sdf.hpp:GetSmoothGradient4d", "include/sdf_tools/sdf.hpp:GetAutoDiffGradient4d", "include/sdf_tools/sdf.hpp:DistanceToBoundary4d"]}
{"id": "C115", "title": "EstimateDistance and the true signed distance to the obstacles", "statement": "Let the signed distance of a location be the Euclidean distance to the nearest point of a filled cell's cube, or minus the distance to the nearest point of a free cell's cube inside an obstacle. In a map that has both kinds of cells and whose filled (or free) cells form a product of coordinate sets, EstimateDistance at any world location at least half a cell from the faces returns that signed distance up to 5/4 cells, rounding included, for grids up to 16384 cells per axis in any pose. In any other map whose stored distances are finite, the estimate outside the obstacles is at least the signed distance less 5/4 cells, and inside at most the signed distance plus 5/4 cells. In any map one cell thick the distances are finite, and the estimate outside is also at most sqrt(2) times the signed distance plus 2 cells (inside, with the signs turned).", "quantifier": "all maps with filled and free cells, cell sizes 2^-100 to 2^100, poses, and world locations at least half a cell from the faces", "why_tests_cant": "the continuous distance to a union of cubes must be compared with an interpolation of rounded centre distances at every location of every map", "anchors": ["include/sdf_tools/sdf.hpp:EstimateDistance4d", "include/sdf_tools/sdf.hpp:GetCorrectedCenterDistance", "include/sdf_tools/sdf_generation.hpp:ExtractSignedDistanceField"]}
{"id": "C116", "title": "Gradients returned by the Python array wrappers", "statement": "compute_sdf_and_gradient of utils_3d (utils_2d) on a non-empty 0/1 array returns float32 arrays of distances and gradients with the documented shapes, and every gradient entry is the slope of the returned distances along its axis up to float32 rounding: the central difference in the interior, the one-sided difference on the faces, zero along an axis with one entry. If one of the distances an entry's cell reads is infinite, all components at that cell are NaN instead. In two dimensions an array with both 0 and 1 entries gives numbers everywhere, and no gradient component exceeds 9/4; an array of more than one equal entries gives infinite distances and NaN gradients everywhere.", "quantifier": "all environment arrays of grids within the squared-diagonal limit, cell sizes 2^-100 to 2^100, origins, and array positions", "why_tests_cant": "the distances, the finite differences, the quaternion product and the conversion to float32 all round, and the edge cases depend on the position, the shape and where infinite distances are", "anchors": ["src/sdf_tools/utils_2d.py:compute_sdf_and_gradient", "src/sdf_tools/utils_3d.py:compute_sdf_and_gradient", "include/sdf_tools/sdf.hpp:GetFullGradient", "include/sdf_tools/sdf.hpp:GetGradient", "include/sdf_tools/sdf.hpp:GetGridAlignedGradient"]}
{"id": "C117", "title": "World-frame gradients from a stored transform", "statement": "For a distance field of finite values in a grid whose stored origin transform is a rotation up to rounding (every entry of the linear part within 2^-50 of a rotation matrix), GetGradient returns three numbers (or the documented empty list), each within (2^-21 + 2^-38) times the largest grid-aligned slope of the exact gradient turned into the world frame by that rotation; the conversion of the matrix to a quaternion, its inverse and both quaternion products are all computed in IEEE arithmetic.", "quantifier": "all fields of finite values, cell sizes 2^-100 to 2^100, rotations, matrices of doubles close to them, indices, and both edge modes", "why_tests_cant": "the conversion has four cases that meet where rounding decides between them, and rotations form a continuum; tests sample a few of them", "anchors": ["include/sdf_tools/sdf.hpp:GetGradient", "include/sdf_tools/sdf.hpp:GetGridAlignedGradient"]}
{"id": "C118", "title": "Reported distances against the signed distance in the world", "statement": "A map is placed in the world by a stored origin transform (a rotation up to rounding and a translation), its signed distance field is extracted, and EstimateDistance is called for a world position more than half a cell inside the grid, with the inverse transform, the coordinates and the cell lookup all computed in floating point. If the obstacles (or the free cells) are a box, wall or room, the reported distance is within 4/3 cells of the Euclidean signed distance in the world to the placed obstacles; so a reported distance of at least rho plus 4/3 cells shows that every point of every obstacle is at least rho away. For every map with finite stored distances the reported distance does not fall short of (inside obstacles: exceed) the signed distance by more than 4/3 cells, and in flat maps it is bounded on both sides.", "quantifier": "all maps up to 16384 cells per axis with filled and free cells, cell sizes 2^-100 to 2^60, poses whose origin is at most 2^29 cells away, and query positions", "why_tests_cant": "it quantifies over all poses, maps and query positions, and chains the distance transform, its rounding, the computed inverse, the transform of the query, the cell lookup, and the interpolation", "anchors": ["include/sdf_tools/sdf.hpp:EstimateDistance", "include/sdf_tools/sdf_generation.hpp:ExtractSignedDistanceField", "include/sdf_tools/collision_map.hpp:ExtractSignedDistanceField"]}
{"id": "C119", "title": "Distances to single objects and to a scene made of them", "statement": "MakeAllObjectSDFs on a tagged map placed in the world by a stored origin transform returns one field for every object id other than 0 that occurs in the grid. If the obstacle cells of an object are a box, wall or room, EstimateDistance on its field, for a world position more than half a cell inside the grid, is within 4/3 cells of the Euclidean signed distance in the world to that object alone, whatever the other objects are. If every obstacle cell carries an id other than 0 and every object is such a box, a position at which every object's field reports at least rho plus 4/3 cells is at least rho away from every point of every obstacle of the scene.", "quantifier": "all tagged maps up to 16384 cells per axis with a free cell, either treatment of unknown cells, cell sizes 2^-100 to 2^60, poses whose origin is at most 2^29 cells away, and query positions", "why_tests_cant": "it quantifies over all scenes, poses and positions, and chains the scan for ids, one distance transform per object, rounding, the computed inverse, the lookup and the interpolation", "anchors": ["include/sdf_tools/tagged_object_collision_map.hpp:MakeAllObjectSDFs", "include/sdf_tools/tagged_object_collision_map.hpp:MakeObjectSDFs", "include/sdf_tools/tagged_object_collision_map.hpp:ExtractSignedDistanceField", "include/sdf_tools/sdf.hpp:EstimateDistance"]}
{"id": "C12", "title": "Distance-field construction is memory safe and overflow free", "statement": "On any grid with nx^2+ny^2+nz^2 < 2^31 and in-bounds source points, BuildDistanceField never appends to the bucket it is iterating over (which would invalidate its iterators), never indexes a bucket or neighbourhood table out of range, and never overflows 32-bit int arithmetic; it throws exactly when a source point is out of bounds.", "quantifier": "all grids below the size bound, all source lists, every iteration of the propagation", "why_tests_cant": "iterator invalidation is undefined behaviour that may be invisible in any given run", "anchors": ["include/sdf_tools/sdf_generation.hpp:BuildDistanceField", "include/sdf_tools/sdf_generation.hpp:ComputeDistanceSquared", "include/sdf_tools/sdf_generation.hpp:GetDirectionNumber"]}
{"id": "C120", "title": "Voxels of a point cloud in the demo script", "statement": "point_cloud_to_voxel_grid sets exactly the voxels that contain a point of the cloud, so that the distances compute_sdf_and_gradient returns for them are negative exactly there; a point outside the volume is rejected.", "quantifier": "all point clouds, grid shapes, cell sizes and corners of the volume", "why_tests_cant": "it quantifies over all clouds and all points; the script runs one seeded cloud", "anchors": ["scripts/3d_sdf_demo_rviz.py:point_cloud_to_voxel_grid", "src/sdf_tools/utils_3d.py:compute_sdf_and_gradient"]}
{"id": "C121", "title": "Points and arrows of the demo script", "statement": "visualize_sdf publishes, for every voxel, a point inside it with the distance of that voxel, and plot_arrows_rviz draws arrows along which the distance grows.", "quantifier": "all distance arrays, grid shapes, cell sizes and corners of the volume", "why_tests_cant": "the display is only looked at; the claim is about every voxel of every array", "anchors": ["scripts/3d_sdf_demo_rviz.py:get_grid_points", "scripts/3d_sdf_demo_rviz.py:visualize_sdf", "scripts/3d_sdf_demo_rviz.py:plot_arrows_rviz"]}
{"id": "C122", "title": "Rectangular obstacles from Python", "statement": "compute_sdf_and_gradient of utils_2d and utils_3d, on an array whose 1 entries (or 0 entries) are exactly the positions whose indices each satisfy a condition of their own (a rectangle, box, wall, tunnel or grid of them), returns at every position, near or far, the distance to the nearest position with the other entry, negative where the array is 1, up to a relative error of 2^-24 + 2^-51. For an image with one pixel set, the pixel itself gets minus one cell, every other pixel its distance to that pixel, and the gradient of the pixel to its right is (3/2, 0) up to 2^-20.", "quantifier": "all images and volumes of this form up to 16384 cells per axis, all positions, cell sizes 2^-100 to 2^100", "why_tests_cant": "test/test_bindings.py checks seven entries for one pixel of one image; the claim is about every entry of every such array", "anchors": ["src/sdf_tools/utils_2d.py:compute_sdf_and_gradient", "src/sdf_tools/utils_3d.py:compute_sdf_and_gradient", "test/test_bindings.py:test_sdf_tools"]}
{"id": "C123", "title": "A field that passes a simple check is safe to plan with", "statement": "Read the whole field once: every value is a finite number, and cells that share a face and have values of the same sign differ by at most 1.01 cells. Then every stored distance is at most 7/4 of the distance to the centre of any cell of the other class. For every world location more than half a cell inside a placed map EstimateDistance answers, and a reported distance of at least 7/4 rho plus 8/3 cells shows that every point of an obstacle is at least rho away. The fields of maps whose filled (or free) cells are a box or another product of index sets always pass. In the outermost half cells, where the report is extrapolated, EstimateDistance still answers, and the report is at most 7/4 times the distance to any point of an obstacle plus 8 cell sizes (and minus the report at most 7/4 times the distance to any point of a free cell plus 8 cell sizes).", "quantifier": "all maps up to 16384 cells per axis with filled and free cells, whatever the obstacles, whose field passes the check; all placements that are rotations up to rounding; all locations in the map", "why_tests_cant": "the distance transform is not exact in three dimensions and no bound is known for every map; the claim turns a reading of one field into a guarantee for all locations", "anchors": ["include/sdf_tools/sdf_generation.hpp:ExtractSignedDistanceField", "include/sdf_tools/sdf.hpp:EstimateDistance", "include/sdf_tools/sdf_builder.hpp:BuildDistanceField"]}
{"id": "C124", "title": "Obstacles marked by world positions", "statement": "SetValue by position on a collision map with any pose: a position inside the volume (by a thousandth of a cell) is accepted, exactly one cell changes, and the position lies in the cube of that cell up to a thousandth of a cell; reading at the position returns the value. A position outside the volume by a thousandth of a cell is refused and nothing changes. After marking any list of positions in a map without obstacles, every filled cell has a marked position at its cube. With the field extracted from that map: if every marked position is at least rho (two cells or more) from a query, the reported distance is at least rho - 25/8 cells; if the field passes the check of C123 and the reported distance is at least 7/4 rho + 8/3 cells, every marked position in the map is at least rho - 1/500 cell away; for one marked position no check is needed and the report exceeds the distance by at most 27/20 cells.", "quantifier": "all positions, lists of positions and queries, all poses that are rotations up to rounding with the origin up to 2^29/N cells away, maps up to N = 16384 cells per axis, IEEE double arithmetic in the lookup", "why_tests_cant": "the position goes through a rounded inverse transform and a rounded division before a cell is chosen; the claim holds for every position and pose", "anchors": ["include/sdf_tools/collision_map.hpp:SetValue3d", "include/sdf_tools/collision_map.hpp:SetValue4d", "include/sdf_tools/collision_map.hpp:SetValue", "include/sdf_tools/collision_map.hpp:ExtractSignedDistanceField", "include/sdf_tools/sdf.hpp:EstimateDistance"]}
{"id": "C125", "title": "Reported distances change slowly", "statement": "EstimateDistance has no jumps inside the map: for a field extracted from a map with filled and free cells that passes the check of C123 (values of neighbouring cells of one class differ by at most 1.01 cells), the distances reported at two world locations at least a small margin inside the grid of cell centers differ by at most 7/4 of the distance between the locations plus a thirtieth of a cell. Maps whose filled or free cells form a product of sets along the axes pass the check, so for them it holds unconditionally.", "quantifier": "all pairs of locations, all maps up to 16384 cells per axis, all poses that are rotations up to rounding, IEEE arithmetic in extraction, lookup and interpolation", "why_tests_cant": "the reports come from different cells with different interpolation weights; a jump could be at any of the boundaries between them", "anchors": ["include/sdf_tools/sdf.hpp:EstimateDistance", "include/sdf_tools/sdf.hpp:EstimateDistance4d", "include/sdf_tools/collision_map.hpp:ExtractSignedDistanceField"]}
{"id": "C126", "title": "A location that ProjectOutOfCollisionToMinimumDistance returns is clear of the obstacles", "statement": "A location returned by ProjectOutOfCollisionToMinimumDistance is at least as clear of the obstacles of the map as was asked. (It is not for small distances: near a corner inside an obstacle the reported distance can exceed a quarter of a cell, and the location is returned as it is. In a field that passes the check of C123 an asked distance of 7/4 r plus 8 cells does keep every point of every obstacle r away, wherever in the volume the projection ends, also in the outermost half cells where the report is extrapolated.)", "quantifier": "all maps up to 16384 cells per axis with filled and free cells, all start locations and step sizes, all poses that are rotations up to rounding, IEEE arithmetic throughout", "why_tests_cant": "the projection can end anywhere in the volume, after any number of steps; the relation between the report and the true distance has to hold at every such location", "anchors": ["include/sdf_tools/sdf.hpp:ProjectOutOfCollisionToMinimumDistance4d", "include/sdf_tools/sdf.hpp:ProjectOutOfCollisionToMinimumDistanceGridFrame", "include/sdf_tools/sdf.hpp:EstimateDistanceInternal"]}
{"id": "C127", "title": "What the tutorial's map contains", "statement": "For every grid of at least two cells per axis that is centred at the origin of its frame, following the tutorial (fill by index the cells in the lower half of all three axes, then fill the cell at location (0, 0, 0), then update the components) leaves exactly the block and the first cell beyond it on every axis filled. UpdateConnectedComponents returns 3: the block (1), the free cells (2) and the single cell (3), which touches the block only at a corner. In the field extracted from the map every cell of the block holds minus the number of cells to the nearest free cell straight ahead times the cell size, rounded.", "quantifier": "all cell counts of at least two per axis and fewer than 2^32 cells (distances: small grids), all cell sizes, all frames whose near corner is opposite to the far one, every cell, every rounding of the distances", "why_tests_cant": "the tutorial runs for one size; that the free space is one region and the single cell is separate has to hold for all sizes, and every cell of the block has its own distance", "anchors": ["src/sdf_tools_tutorial.cpp:main", "include/sdf_tools/collision_map.hpp:SetValue", "src/sdf_tools/collision_map.cpp:UpdateConnectedComponents", "include/sdf_tools/collision_map.hpp:ExtractSignedDistanceField"]}
{"id": "C128", "title": "Asking at waypoints is enough to clear a path", "statement": "In a field whose neighbouring same-side cells differ by at most 1.01 cell sizes, a report of EstimateDistance clears a ball: no point within the ball can be closer to an obstacle than the report, less 8/3 cell sizes, divided by 7/4, less the distance to the query. So if waypoints at most 2*delta apart all report at least 7/4*(rho + delta) plus 8/3 cell sizes, every point of the straight-line path through them is at least rho away from every point of a filled cell. Conversely waypoints whose distance from the obstacles is at least the asked number plus 4/3 cell sizes report at least that number. For a box-like obstacle no check of the field is needed and rho + delta plus 4/3 cell sizes is enough. For waypoints anywhere in the volume, also in the outermost half cells, reports of 7/4*(rho + delta) plus 8 cell sizes are enough.", "quantifier": "all maps of up to 2^14 cells per axis with both classes, all IEEE cell sizes in range, all poses that are rotations up to rounding, all lists of waypoints away from the outer half cell, all clearances and spacings, all points of the path and of the obstacles", "why_tests_cant": "the claim is about the continuum of points between the queries, of which a test can look at finitely many", "anchors": ["include/sdf_tools/sdf.hpp:EstimateDistance", "include/sdf_tools/collision_map.hpp:ExtractSignedDistanceField"]}
{"id": "C129", "title": "With the virtual border, reports keep clear of obstacles and of the faces of the volume", "statement": "A map is processed with add_virtual_border and queried with EstimateDistance in the world, more than half a cell from the faces. If neighbouring same-side cells of the field differ by at most 1.01 cell sizes, the report is at most 7/4 times the distance to any point of a filled cell plus 8/3 cell sizes, and at most 1.02 times the distance to any point outside the volume plus 1/25 of a cell size. In a two-dimensional map no condition on the field is needed and both factors are 1.415 (plus 2 cell sizes, plus 1/4 cell size). Conversely a location whose distance from every obstacle and from the outside is at least m plus 7/4 cell sizes reports at least m. So waypoints with large enough reports make a path that neither touches an obstacle nor leaves the volume. Maps without obstacles are included. In the outermost half cells, where the report is extrapolated, EstimateDistance still answers (with the condition on neighbouring cells), and the report is at most 7/4 times the distance to any point of a filled cell plus 8 cell sizes and at most 1.02 times the distance to any point outside the volume plus 5 cell sizes; for waypoints anywhere in the volume reports of 7/4*(rho + delta) plus 8 cell sizes make a path that keeps rho clear.", "quantifier": "all maps of up to 2^14 cells per axis (also with one class only), all IEEE cell sizes in range, all poses that are rotations up to rounding, all queries more than half a cell from the faces, all points of obstacles and of the outside, all lists of waypoints", "why_tests_cant": "it bounds every report by the distances to a continuum of points, for every map and every pose, in floating point", "anchors": ["include/sdf_tools/sdf.hpp:EstimateDistance", "include/sdf_tools/sdf_generation.hpp:ExtractSignedDistanceField"]}
{"id": "C13", "title": "SDF sign and magnitude classify every cell correctly", "statement": "In the SDF returned by ExtractSignedDistanceField (no virtual border) a cell the predicate calls filled has a value <= -(stored resolution), every other cell has a value >= +(stored resolution); no cell is NaN, zero, or left at the default value.", "quantifier": "all grids, all fill predicates (so all occupancies and both settings of unknown_is_filled), all positive resolutions representable as a positive float", "why_tests_cant": "must hold at every cell of every map", "anchors": ["include/sdf_tools/sdf_generation.hpp:ExtractSignedDistanceField", "include/sdf_tools/collision_map.hpp:CollisionMapGrid::ExtractSignedDistanceField"]}
{"id": "C130", "title": "From a point cloud to a clear path", "statement": "Positions are marked as occupied with SetValue in a collision map without obstacles, placed anywhere in the world, and its field is extracted with add_virtual_border. EstimateDistance is asked at the waypoints of a path, at most 2*delta apart. If the field passes the check of C123 and all reports are at least 7/4*(rho + delta) plus 8/3 cell sizes, every point of the straight-line path is at least rho (less 1/500 of a cell) away from every marked position in the volume and at least rho away from everything outside the volume. In a two-dimensional map the field needs no check and 1.415*(rho + delta) plus 2 cell sizes is enough. Conversely a location at least b plus 7/2 cell sizes from every marked position and b plus 7/4 cell sizes from the outside gets a report of at least b. Waypoints anywhere in the volume, also in its outermost half cells where the report is extrapolated, are covered with 8 cell sizes instead of 8/3.", "quantifier": "all maps of up to 2^14 cells per axis without obstacles, all lists of marked positions, IEEE cell sizes in range, poses that are rotations up to rounding, lists of waypoints more than half a cell inside the faces, rho and delta", "why_tests_cant": "it concerns every point of every path, every cloud and every pose, in floating point", "anchors": ["include/sdf_tools/collision_map.hpp:SetValue4d", "include/sdf_tools/collision_map.hpp:ExtractSignedDistanceField", "include/sdf_tools/sdf.hpp:EstimateDistance"]}
{"id": "C131", "title": "Resampling in floating point", "statement": "Resample on a collision map or tagged map placed in the world by a stored origin transform, with cell centres, their world locations and the lookup in the new grid computed in IEEE doubles: every cell of the new map holds a whole copy of an old cell whose centre lies in its cube (up to a thousandth of a cell), or the old out-of-bounds value if no old centre lies well inside it; every old cell whose centre lies in the new volume finds its own value, or that of another cell with its centre in the same new cell, at its centre. Resampling to the map's own resolution and cell counts returns every cell unchanged. When the new cells are smaller by at least 0.2 percent and the new grid covers the old centres, no cell's value is lost. If the out-of-bounds value is free, every obstacle of the new map comes from an obstacle of the old map at the same place.", "quantifier": "all maps of up to 2^20 cells per axis, all old and new cell sizes from 2^-100 to 2^60 such that the old map is at most 2^29 new cells wide, new cell counts, poses that are rotations up to rounding with the origin at most 2^29 new cells away", "why_tests_cant": "each cell goes through two rounded transforms and a rounded division; a last-bit error at one pose would move or drop a cell", "anchors": ["src/sdf_tools/collision_map.cpp:CollisionMapGrid::Resample", "src/sdf_tools/tagged_object_collision_map.cpp:TaggedObjectCollisionMapGrid::Resample", "include/sdf_tools/collision_map.hpp:SetValue4d"]}
{"id": "C132", "title": "Detections of several objects and paths clear of some of them", "statement": "Positions, each with the id of an object, are marked with SetValue in a tagged map without obstacles that is placed in the world by a stored origin transform; the signed distance field of a list of object ids is extracted with the virtual border and asked at the waypoints of a path. If the extracted field passes the check of C123 and every report is at least 7/4 (rho + delta) plus 8/3 cells, with waypoints at most 2 delta apart, every point of the path is at least rho (less a five-hundredth of a cell) from every position marked for one of these objects, unless a position within about one cell of it is marked for another object, and at least rho from everything outside the volume. For maps one cell thick the field needs no check, and 1.415 (rho + delta) plus two cells is enough. Positions of objects not in the list do not lower the reports: a location far enough from the positions of the listed objects and from the outside is always accepted. If all fields of MakeAllObjectSDFs are asked, and every mark has an id other than 0, the path is clear of every marked position, however the marks overlap. Waypoints anywhere in the volume, also in its outermost half cells where the report is extrapolated, are covered with 8 cell sizes instead of 8/3.", "quantifier": "all maps of up to 2^14 cells per axis, all cell sizes from 2^-100 to 2^60, all poses that are rotations up to rounding, all lists of marked positions and ids in any order, all lists of object ids, all paths", "why_tests_cant": "marks overwrite one another in an order the caller chooses, and the safety margin must hold for every point of every path after rounding in the marking, the distance field and the queries", "anchors": ["include/sdf_tools/tagged_object_collision_map.hpp:SetValue", "include/sdf_tools/tagged_object_collision_map.hpp:ExtractSignedDistanceField", "include/sdf_tools/tagged_object_collision_map.hpp:MakeAllObjectSDFs", "include/sdf_tools/sdf.hpp:EstimateDistance"]}
{"id": "C133", "title": "What the free-and-named-objects field stores", "statement": "ExtractFreeAndNamedObjectsSignedDistanceField stores, on every free cell, exactly the value that ExtractSignedDistanceField for all objects (empty id list, no border) stores there, on every cell of an obstacle with a nonzero id exactly the value of ExtractSignedDistanceField for the nonzero ids, and 0 on every obstacle cell with id 0; its reported maximum is that of the former and its minimum that of the latter. So in IEEE arithmetic a free cell stores the distance to some obstacle cell of any id, never less than the distance to the nearest one, and a cell of a named object stores minus the distance to some cell that is free or has id 0, never less in size than the distance to the nearest one, up to the relative rounding error; the nearest one is met exactly below sqrt 8 cells, and up to a factor sqrt 2 on maps one cell thick. Obstacles without a name thus count as obstacles for free cells and as outside for named objects.", "quantifier": "all tagged maps within the distance field's size limit, all id lists that cover the occurring nonzero ids, all out-of-bounds values, unknown treated either way; all roundings for the agreement, cell sizes 2^-126 to 2^100 for the distances", "why_tests_cant": "the combination of two fields is decided per cell by signs of rounded values; an input where one of them is zero, infinite or of the wrong sign would silently take the value of the other field", "anchors": ["include/sdf_tools/tagged_object_collision_map.hpp:ExtractFreeAndNamedObjectsSignedDistanceField", "include/sdf_tools/tagged_object_collision_map.hpp:ExtractSignedDistanceField"]}
{"id": "C134", "title": "Mirrored maps have mirrored distances", "statement": "If a map is mirrored, turned by a right angle or has two axes exchanged, so that cells keep their classes and their distances from each other, then every cell of the new map should store the value its original stored. It does where the nearest cell of the other class is less than sqrt 8 cells away (any map, any rounding); on maps one cell thick the two values have the same sign and differ by a factor of at most 1.42. It does not in general: mirroring a 4 x 4 x 1 map with three filled cells changes the stored distance of a corner cell from sqrt 8 to 3. Already the order in which the same sources are listed changes the result of the distance field.", "quantifier": "all pairs of congruent maps within the distance field's size limit, all out-of-bounds values; all roundings for the first part, cell sizes 2^-126 to 2^100 for the second", "why_tests_cant": "the stored distance depends on the order in which the wavefront meets cells, which no finite set of maps covers; symmetric test maps hide the difference", "anchors": ["include/sdf_tools/sdf_generation.hpp:BuildDistanceField", "include/sdf_tools/sdf_generation.hpp:ExtractSignedDistanceField"]}
{"id": "C135", "title": "Enlarging a map with free cells keeps the distances of free cells", "statement": "If a map is placed inside a larger one whose other cells are all free, the nearest filled cell of each free cell is the same, so the stored value should be the same. On maps one cell thick it is, bit by bit, for every placement and every rounding. On every map it is where a filled cell is less than sqrt 8 cells away. It is not in general: one more layer of free cells next to a 2 x 4 x 4 map with five filled cells changes the stored distance of a free cell from 3 to sqrt 8.", "quantifier": "all maps, all larger maps within the distance field's size limit, all placements, all roundings and cell sizes, all out-of-bounds values", "why_tests_cant": "the wavefront may pass through the added cells and come back, so the runs on the two maps differ at every step; equality needs an invariant that relates the two runs", "anchors": ["include/sdf_tools/sdf_generation.hpp:BuildDistanceField", "include/sdf_tools/sdf_generation.hpp:ExtractSignedDistanceField"]}
{"id": "C136", "title": "Topology of components of any shape", "statement": "For every component of a collision map ComputeComponentTopology should report its voids (pieces of its boundary besides the outer one) and its holes (pieces of the boundary minus the Euler number, the alternating count of corners, edges, faces and cells). It does for every component that contains no 2 x 2 x 2 block of cells and whose boundary does not touch itself, in any position and for every iteration order. For every component that contains a 2 x 2 x 2 block it does not: the call throws exactly if the component has a flat piece of top of 2 x 2 cells that is at least two cells thick; otherwise both numbers are too large by the number of 2 x 2 x 2 blocks of the component that are open below. Nine cells (a 2 x 2 x 2 block and one cell on top) are reported with 1 hole and 1 void.", "quantifier": "all maps (any size below 2^32 cells, any occupancies) with a zero out-of-bounds label, both settings of ignore_empty_components, all components, all iteration orders of the hash maps", "why_tests_cant": "the claim relates local corner counts to a global invariant of an arbitrary shape; a proof needs a discrete Gauss-Bonnet argument, and which shapes fail cannot be enumerated", "anchors": ["include/sdf_tools/topology_computation.hpp:ComputeHolesInSurface", "include/sdf_tools/topology_computation.hpp:ComputeConnectivityOfSurfaceVertices", "include/sdf_tools/topology_computation.hpp:ComputeComponentTopology", "src/sdf_tools/collision_map.cpp:CollisionMapGrid::ComputeComponentTopology"]}
{"id": "C137", "title": "Uncompressed files have a fixed byte layout", "statement": "In an uncompressed file every member of the map stands at a position that can be computed from the number of cells and the length of the frame name: the cell (x, y, z) of a distance field is the little-endian float at byte 269 + 4*(x*ny*nz + y*nz + z), the cell counts, strides, sizes and poses are at the listed positions, and the file is 398 + 4n + f bytes long (410 + 8n + f for collision maps, 431 + 16n + f for tagged maps, n cells, f bytes of frame name). The layout fixes every byte: a file written by another program according to it is loaded as that map, and two maps with the same file are equal. The payload of a message is the compressed file without its first four bytes.", "quantifier": "all distance fields, collision maps and tagged maps with fewer than 2^64 cells and frame-name bytes, all members with any values, every byte position", "why_tests_cant": "a round trip succeeds also when writer and reader agree on a wrong layout; positions depend on the number of cells and the length of the frame name, which are unbounded", "anchors": ["src/sdf_tools/sdf.cpp:SignedDistanceField::SerializeSelf", "src/sdf_tools/sdf.cpp:SignedDistanceField::SaveToFile", "src/sdf_tools/collision_map.cpp:CollisionMapGrid::SerializeSelf", "src/sdf_tools/tagged_object_collision_map.cpp:TaggedObjectCollisionMapGrid::SerializeSelf", "src/sdf_tools/sdf.cpp:SignedDistanceField::GetMessageRepresentation"]}
{"id": "C138", "title": "Programs that save, load and send maps", "statement": "A program that works with any number of signed distance fields, collision maps and tagged maps, changes them, saves them to files (compressed or not; saves may be refused, fail half way or be cut off by a crash), loads files under any type, sends maps as messages, ends and starts again, sees what it would see if files and messages held the objects themselves: a load gives exactly the object of the last save to that file if that save was complete and of that type, and throws and changes nothing otherwise. Going on with a loaded map is going on with the saved one: after writes, a complete save, a restart, a load and more writes every cell reads as the last value written before or after. A map in memory that says its components are valid has the components of its contents, also after files, messages and restarts.", "quantifier": "all programs (finite lists of constructions, calls, saves with any fate, loads, messages and restarts), all numbers of objects and files, all map contents and sizes that fit into memory", "why_tests_cant": "the interleavings of calls, saves, failures and restarts over several objects and files are unbounded", "anchors": ["src/sdf_tools/sdf.cpp:SignedDistanceField::SaveToFile", "src/sdf_tools/sdf.cpp:SignedDistanceField::LoadFromFile", "src/sdf_tools/collision_map.cpp:CollisionMapGrid::SaveToFile", "src/sdf_tools/collision_map.cpp:CollisionMapGrid::LoadFromFile", "src/sdf_tools/tagged_object_collision_map.cpp:TaggedObjectCollisionMapGrid::LoadFromFile", "src/sdf_tools/collision_map.cpp:CollisionMapGrid::GetMessageRepresentation", "src/sdf_tools/collision_map.cpp:CollisionMapGrid::LoadFromMessageRepresentation"]}
{"id": "C139", "title": "Stored numbers are IEEE numbers", "statement": "Storing a computed distance as float keeps the nearest float: among all float bit patterns none has a closer value, of two equally close ones the one with an even last bit is taken, values already representable are not changed, and the result is infinite exactly from the middle between the largest float and 2^128 on; the same for intermediate doubles. A number other than zero has only one bit pattern, so equal stored numbers are equal bytes. The tests of the library on an occupancy (above, below, equal to 0.5) compare the number that the stored bits stand for; NaN fails all of them.", "quantifier": "all real and infinite values to be rounded, all 2^32 float and 2^64 double bit patterns", "why_tests_cant": "rounding and comparisons range over all real inputs and all bit patterns; ties, subnormals, overflow, signed zeros and NaN patterns are easily missed by samples", "anchors": ["include/sdf_tools/sdf_generation.hpp:ExtractSignedDistanceField", "include/sdf_tools/collision_map.hpp:COLLISION_CELL", "include/sdf_tools/collision_map.hpp:CollisionMapGrid::CheckIfSurfaceIndex"]}
{"id": "C14", "title": "SDF of an all-free map is +infinity everywhere, of an all-filled map -infinity everywhere", "statement": "If no cell is filled, every SDF value is +infinity and the extrema are (+inf,+inf); if every cell is filled, every value is -infinity and the extrema are (-inf,-inf). Conversely a cell within the 26-neighbourhood of an opposite cell is finite.", "quantifier": "all grid dimensions (at least one cell)", "why_tests_cant": "boundary case for all shapes; relies on IEEE inf arithmetic inf-0", "anchors": ["include/sdf_tools/sdf_generation.hpp:ExtractSignedDistanceField"]}
{"id": "C140", "title": "What the bytes of a saved distance field say about the map", "statement": "The distance field of a collision map can always be stored bit for bit. When it is saved without compression, the four bytes of cell (x, y, z), at offset 269 + 4(x ny nz + y nz + z), are the bits of a float that is negative exactly if the cell is an obstacle in the map and positive exactly if it is not; the number is infinite, or its magnitude is the distance to some cell of the other class up to a relative error of 2^-24 + 2^-51, and it is not below the distance to the nearest such cell by more than that. A program that creates a map, writes cells, extracts the field, saves it (compressed or not) and ends, and another one that loads the file later, agree: what the second reads has these properties for the map given by the last write to each cell. With a virtual border the same holds, with the layer of virtual cells around the grid counted among the cells of the other class; on two-dimensional maps with a border the number is always finite and at most sqrt 2 times the distance to the nearest one.", "quantifier": "all grids below the size limit of the generator, all cell sizes from 2^-126 to 2^100, all sequences of writes, both treatments of unknown cells, all programs in between that do not write the file, every cell", "why_tests_cant": "it joins unbounded histories of writes, an iterated float computation, the byte layout and process restarts; a test sees single maps and single cells", "anchors": ["include/sdf_tools/collision_map.hpp:CollisionMapGrid::ExtractSignedDistanceField", "include/sdf_tools/sdf_generation.hpp:ExtractSignedDistanceField", "src/sdf_tools/sdf.cpp:SignedDistanceField::SaveToFile", "src/sdf_tools/sdf.cpp:SignedDistanceField::LoadFromFile", "src/sdf_tools/collision_map.cpp:CollisionMapGrid::SetValue"]}
{"id": "C141", "title": "Bounded work of the distance transform and of the labelling", "statement": "Building the distance field from a list of source cells takes at most one queue entry per listed cell plus 2 sqrt(nx^2+ny^2+nz^2) + 3 per cell of the grid, and looks at no more than 26 neighbours for each of the former and 6 for each of the latter; extracting a signed distance field takes at most 4 sqrt(nx^2+ny^2+nz^2) + 7 queue entries per cell in all. No arrangement of obstacles makes it slower than that. Labelling the connected components of a collision map takes exactly one step of the flood fill per cell in all, whatever the components are, and none when the labels are still valid. The same holds for the components of a tagged map; labelling its convex segments takes exactly one step per cell that takes part in the segmentation.", "quantifier": "all grid dimensions below the size limit, all lists of source cells (with duplicates, in any order), all obstacle arrangements; for the labelling all collision maps and tagged maps of fewer than 2^32 cells", "why_tests_cant": "a worst case over all arrangements of obstacles; a timing test sees a few of them", "anchors": ["include/sdf_tools/sdf_generation.hpp:BuildDistanceField", "include/sdf_tools/sdf_generation.hpp:MakeNeighborhoods", "include/sdf_tools/topology_computation.hpp:ComputeConnectedComponents", "src/sdf_tools/collision_map.cpp:CollisionMapGrid::UpdateConnectedComponents", "include/sdf_tools/sdf_generation.hpp:ExtractSignedDistanceField", "src/sdf_tools/tagged_object_collision_map.cpp:UpdateConnectedComponents", "src/sdf_tools/tagged_object_collision_map.cpp:UpdateConvexSegments"]}
{"id": "C142", "title": "The cell size is only a unit of length", "statement": "Extract signed distance fields of the same filled cells with two cell sizes. If one cell size is a power of two times the other, every stored distance is exactly (bit for bit, in IEEE arithmetic) that power times the other stored distance, and every gradient is the same bit for bit. For any two cell sizes the order of two stored distances is never reversed: a distance smaller than another in one field is not larger in the other. Both with and without a virtual border.", "quantifier": "all grid dimensions below the size limit, all obstacle arrangements, all powers of two, all double cell sizes between 2^-126 and 2^100 (2^-100 for gradients), all cells, with and without virtual border; the order for all arithmetics and all cell sizes", "why_tests_cant": "exactness of a chain of floating-point roundings for every input; a test compares a few fields, usually with a tolerance", "anchors": ["include/sdf_tools/sdf_generation.hpp:ExtractSignedDistanceField", "include/sdf_tools/sdf.hpp:GetGridAlignedGradient"]}
{"id": "C143", "title": "The image node treats every picture by itself, pixel by pixel", "statement": "The image node answers every picture that can be decoded with one pair of images and publishes nothing for the others. What it publishes for a picture does not depend on the pictures it received before, whatever their sizes, nor on pictures that could not be decoded; both published images have the size of the picture; a pixel that is not black has 0 in the first channel of the raw image and its distance (at least 1, the distance to some pixel of the other kind if there is one) in the second, a black pixel the other way round, and the preview is blue and red accordingly. (The part on pixels fails for pictures of several bytes per pixel, which the node accepts: it reads as many bytes of each row as there are columns, so only the leftmost pixels count; a white pixel right of a black one is taken for black.)", "quantifier": "all sequences of pictures of any sizes, row strides and contents, decodable or not; all states of the node; every pixel; for the ignored part all numbers of bytes per pixel", "why_tests_cant": "ranges over all histories of frames with changing sizes (buffers are reused and resized) and over all pictures", "anchors": ["src/image_2d_sdf_node.cpp:ImageSDF::camera_cb", "src/image_2d_sdf_node.cpp:ImageSDF::update_sdf"]}
{"id": "C144", "title": "Reports of the free-and-named-objects field in the world", "statement": "Take the field of ExtractFreeAndNamedObjectsSignedDistanceField. If neighbouring cells of the same sign store values that differ by at most 1.01 cells (the check of C123, run on the combined field itself), then every distance EstimateDistance reports at a location of the volume exceeds 7/4 of the true distance to any point of an obstacle, named or not, by at most 8/3 cells; it is at least b where all obstacles are b and 7/4 cells away, and at most -b where everything outside the named objects is b and 7/4 cells away. On maps one cell thick no check is needed and the factor is 1.415 with 2 cells, as long as there is an obstacle and a cell outside the named objects. So a path whose waypoints are at most 2 delta apart and report at least 7/4 (rho + delta) + 8/3 cells keeps rho from all obstacles, although the obstacles without a name store 0. In the outermost half cells of the volume, where the report is extrapolated, the first bound and its consequence for paths hold with 8 cells instead of 8/3. Every map whose obstacles form a box-like set (a product of three sets of coordinates) or all but one, and whose named obstacles do, passes the check.", "quantifier": "all tagged maps of up to 2^14 cells per axis, all poses of the grid whose rotation is one up to rounding, cell sizes 2^-100 to 2^60, all locations in the volume up to a thousandth of a cell from its faces (for the lower bounds and the two-dimensional case: half a cell and a thousandth), all paths, unknown treated either way, all out-of-bounds values; IEEE arithmetic throughout", "why_tests_cant": "ranges over all maps, poses and locations; the estimate mixes values of two fields and zeros on unnamed obstacles within one interpolation cell", "anchors": ["include/sdf_tools/tagged_object_collision_map.hpp:ExtractFreeAndNamedObjectsSignedDistanceField", "include/sdf_tools/sdf.hpp:EstimateDistance"]}
{"id": "C15", "title": "Reported extrema are the true maximum and minimum of the SDF (no border)", "statement": "The pair returned by ExtractSignedDistanceField without virtual border is (maximum, minimum) of the computed distances over all cells.", "quantifier": "all grids with at least one cell, all predicates", "why_tests_cant": "aggregation over all inputs", "anchors": ["include/sdf_tools/sdf_generation.hpp:ExtractSignedDistanceField"]}
{"id": "C16", "title": "Reported extrema are the true maximum and minimum of the SDF (virtual border)", "statement": "The pair returned by ExtractSignedDistanceField with add_virtual_border is (maximum, minimum) of the values stored in the returned SDF.", "quantifier": "all grids, all predicates", "why_tests_cant": "only fails for particular classes of maps (all free / all filled)", "anchors": ["include/sdf_tools/sdf_generation.hpp:ExtractSignedDistanceField (add_virtual_border overload)"]}
{"id": "C17", "title": "Virtual border: safe queries and correct sign", "statement": "With add_virtual_border, the fill predicate is only ever called with in-bounds indices of the real grid (so the out-of-range exception of the map's predicate is never thrown), filled cells get values <= -(stored resolution), free cells get values >= +(stored resolution), the 'neither' branch value 0 never appears, and on every axis with more than one cell each free (filled) cell touching that axis' boundary face gets exactly +/- the resolution.", "quantifier": "all grids, all predicates", "why_tests_cant": "index-shift errors would appear only for special shapes (axes of size one mixed with larger ones)", "anchors": ["include/sdf_tools/sdf_generation.hpp:ExtractSignedDistanceField (add_virtual_border overload)"]}
{"id": "C18", "title": "Swapping filled and free negates the SDF", "statement": "For every grid and fill predicate f, the SDF values for predicate (not f) are exactly the negated SDF values for f, and the extrema pair is (-min, -max).", "quantifier": "all grids, all predicates", "why_tests_cant": "metamorphic relation between two runs over all inputs", "anchors": ["include/sdf_tools/sdf_generation.hpp:ExtractSignedDistanceField"]}
{"id": "C19", "title": "Interpolation never reads outside the grid", "statement": "For any in-bounds query the lower/upper interpolation indices chosen on each axis are in bounds, differ by one (or coincide if the axis has one cell), and contain the query's own cell; for an out-of-bounds cell index at least one chosen index is out of bounds, so the estimate throws instead of returning a value.", "quantifier": "all axis sizes, all indices (also negative), all offsets", "why_tests_cant": "boundary behaviour at both ends for all sizes", "anchors": ["include/sdf_tools/sdf.hpp:GetAxisInterpolationIndices", "include/sdf_tools/sdf.hpp:EstimateDistanceInterpolateFromNeighborsGridFrame"]}
{"id": "C20", "title": "EstimateDistance is the trilinear interpolant of corrected cell-centre distances", "statement": "For every in-bounds location EstimateDistance equals the trilinear blend of the eight surrounding corrected centre distances with the lower cell index clamp(floor(x/res-1/2),0,n-2) per axis; at every cell centre it returns exactly that cell's corrected centre distance; between cell centres it lies between the minimum and maximum of the eight corner values.", "quantifier": "all grids, all cell contents, all real query locations inside the grid, exact arithmetic", "why_tests_cant": "continuum of query points", "anchors": ["include/sdf_tools/sdf.hpp:EstimateDistance4d", "include/sdf_tools/sdf.hpp:TrilinearInterpolateDistanceXY", "include/sdf_tools/sdf.hpp:BilinearInterpolateDistanceXY"]}
{"id": "C21", "title": "EstimateDistance is continuous across cell boundaries", "statement": "Approaching a surface where the set of interpolation corners changes from either side gives the same value: the interpolants of neighbouring corner sets agree on their common boundary, so the estimate is a continuous function inside the grid. Along each grid axis it varies by at most nine times the largest difference between corrected distances of neighbouring cells per cell travelled.", "quantifier": "all grids and contents, all points on all switching planes", "why_tests_cant": "continuum of query points", "anchors": ["include/sdf_tools/sdf.hpp:EstimateDistanceInterpolateFromNeighborsGridFrame", "include/sdf_tools/sdf.hpp:GetAxisInterpolationIndices"]}
{"id": "C22", "title": "Corrected centre distances keep the sign and put the zero level on cell faces", "statement": "For an SDF whose values have magnitude at least one resolution, the estimate at a cell centre has the same sign as the stored value and magnitude reduced by exactly half a cell; between a free cell with value +res and a face-adjacent filled cell with value -res the estimate is zero exactly half way.", "quantifier": "all grids, all such cell pairs", "why_tests_cant": "ranges over all cells and contents", "anchors": ["include/sdf_tools/sdf.hpp:GetCorrectedCenterDistance"]}
{"id": "C23", "title": "Gradient query shape and correctness on affine fields", "statement": "GetGradient returns either an empty vector or exactly three components; with enable_edge_gradients it returns three components exactly for in-bounds indices, without it exactly for indices that are not on any grid face; if the stored distances are an affine function of the cell index the grid-aligned gradient is its slope at every such cell (0 on one-cell axes).", "quantifier": "all grids, all indices, all affine fields", "why_tests_cant": "shape must hold at every index of every grid, callers index [0..2] unchecked", "anchors": ["include/sdf_tools/sdf.hpp:GetGradient", "include/sdf_tools/sdf.hpp:GetGridAlignedGradient"]}
{"id": "C24", "title": "ProjectOutOfCollisionToMinimumDistance only returns collision-free points", "statement": "If ProjectOutOfCollisionToMinimumDistance4d returns a location, then EstimateDistance at that location is in bounds and strictly greater than the requested minimum distance; a start that already satisfies this is returned unchanged.", "quantifier": "all grids, all contents, all start points and parameters, every number of loop iterations", "why_tests_cant": "the iteration count is unbounded and input dependent", "anchors": ["include/sdf_tools/sdf.hpp:ProjectOutOfCollisionToMinimumDistance4d"]}
{"id": "C25", "title": "ProjectIntoValidVolume clamps into the volume", "statement": "ProjectIntoValidVolumeToMinimumDistance returns a point whose grid-frame coordinates lie in [margin, size-margin] on each axis, is the unique closest such point to the input, returns inputs already inside unchanged, and is idempotent (for margins at most half of each size).", "quantifier": "all rigid origin transforms, all sizes, all margins within the stated range, all points", "why_tests_cant": "continuum of points and transforms", "anchors": ["include/sdf_tools/sdf.hpp:ProjectIntoValidVolumeToMinimumDistance4d"]}
{"id": "C26", "title": "DistanceToBoundary is the distance to the nearest face and its sign tells inside from outside", "statement": "DistanceToBoundary returns (d, true) with d >= 0 the distance to the nearest face for points inside the grid volume and (d, false) with d < 0 for points outside.", "quantifier": "all sizes, all points", "why_tests_cant": "continuum of points; the sign claim fails only near corners outside", "anchors": ["include/sdf_tools/sdf.hpp:DistanceToBoundary4d"]}
{"id": "C27", "title": "Local extrema map: termination and gradient-following consistency", "statement": "ComputeLocalExtremaMap terminates for every field; in the result, a cell with an effectively flat gradient maps to its own centre, a cell whose gradient step leaves the grid maps to +infinity, and every other cell has the same extremum as the neighbour its gradient points to; no cell keeps the initial -infinity marker and no gradient vector is indexed out of range.", "quantifier": "all grids, all distance values (any gradient field, also with cycles)", "why_tests_cant": "gradient fields may contain cycles of any length; termination for all inputs", "anchors": ["src/sdf_tools/sdf.cpp:SignedDistanceField::ComputeLocalExtremaMap", "src/sdf_tools/sdf.cpp:FollowGradientsToLocalExtremaUnsafe"]}
{"id": "C28", "title": "SDF serialization round trip", "statement": "DeserializeSelf on a buffer containing SerializeSelf's output at any offset and followed by any bytes restores every field (geometry, contents, default and OOB values, frame, lock) and reports exactly the number of bytes SerializeSelf reported and appended.", "quantifier": "all SDFs, all buffer prefixes and suffixes", "why_tests_cant": "all field values and sizes", "anchors": ["src/sdf_tools/sdf.cpp:SignedDistanceField::SerializeSelf", "src/sdf_tools/sdf.cpp:SignedDistanceField::DeserializeSelf"]}
{"id": "C29", "title": "CollisionMap serialization round trip", "statement": "The same as the SDF round trip, for CollisionMapGrid (including component labels, component count and the components-valid flag).", "quantifier": "all collision maps, all buffer prefixes and suffixes", "why_tests_cant": "all field values and sizes", "anchors": ["src/sdf_tools/collision_map.cpp:CollisionMapGrid::SerializeSelf", "src/sdf_tools/collision_map.cpp:CollisionMapGrid::DeserializeSelf"]}
{"id": "C30", "title": "TaggedObjectCollisionMap serialization round trip", "statement": "The same as the SDF round trip, for TaggedObjectCollisionMapGrid (including object ids, components, convex segments and both validity flags).", "quantifier": "all tagged maps, all buffer prefixes and suffixes", "why_tests_cant": "all field values and sizes", "anchors": ["src/sdf_tools/tagged_object_collision_map.cpp:TaggedObjectCollisionMapGrid::SerializeSelf", "src/sdf_tools/tagged_object_collision_map.cpp:TaggedObjectCollisionMapGrid::DeserializeSelf"]}
{"id": "C31", "title": "File round trip, compressed and uncompressed", "statement": "LoadFromFile(SaveToFile(x, c)) equals x for both settings of the compress flag, for each of the three map types (assuming decompress inverts compress); likewise LoadFromMessageRepresentation(GetMessageRepresentation(x)) equals x.", "quantifier": "all maps, both compression settings", "why_tests_cant": "all contents", "anchors": ["src/sdf_tools/sdf.cpp:SaveToFile", "src/sdf_tools/sdf.cpp:LoadFromFile", "src/sdf_tools/collision_map.cpp:SaveToFile", "src/sdf_tools/tagged_object_collision_map.cpp:SaveToFile", "src/sdf_tools/sdf.cpp:GetMessageRepresentation"]}
{"id": "C32", "title": "Files of another type, foreign files and short files are rejected", "statement": "LoadFromFile throws for a missing file, for a file shorter than four bytes, for any file whose first four bytes are not one of the two magic headers of that type, and in particular for every file saved by one of the other two types.", "quantifier": "all byte strings as file contents", "why_tests_cant": "all possible file contents", "anchors": ["src/sdf_tools/sdf.cpp:LoadFromFile", "src/sdf_tools/collision_map.cpp:LoadFromFile", "src/sdf_tools/tagged_object_collision_map.cpp:LoadFromFile"]}
{"id": "C33", "title": "An interrupted uncompressed save is never loaded as a valid map", "statement": "If only a strict prefix of the bytes of an uncompressed save reached the disk (crash while writing), LoadFromFile rejects the file at every cut point.", "quantifier": "all maps, all crash points (strict prefixes)", "why_tests_cant": "every crash point of every file", "anchors": ["src/sdf_tools/sdf.cpp:SaveToFile", "src/sdf_tools/sdf.cpp:LoadFromFile", "src/sdf_tools/collision_map.cpp:SaveToFile", "src/sdf_tools/tagged_object_collision_map.cpp:SaveToFile"]}
{"id": "C34", "title": "Component-surface test", "statement": "After UpdateConnectedComponents an in-bounds cell is reported as a component-surface cell if and only if it lies on a face of the grid or has a face neighbour with a different component label.", "quantifier": "all grids, all labels, all OOB cells", "why_tests_cant": "depends on the OOB cell and on exact boundary indices", "anchors": ["include/sdf_tools/collision_map.hpp:IsConnectedComponentSurfaceIndex"]}
{"id": "C35", "title": "ExtractComponentSurfaces returns exactly the surface cells of the requested type", "statement": "For each of the empty, filled and unknown component types, the surfaces returned contain under each component label exactly the component-surface cells of that type with that label.", "quantifier": "all grids, all occupancies, all three requested types", "why_tests_cant": "an index typo only matters for cells where the wrong index is classified differently", "anchors": ["src/sdf_tools/collision_map.cpp:CollisionMapGrid::ExtractComponentSurfaces", "src/sdf_tools/tagged_object_collision_map.cpp:TaggedObjectCollisionMapGrid::ExtractComponentSurfaces"]}
{"id": "C36", "title": "Surface vertex connectivity counts connected surface pieces for every hash order", "statement": "ComputeConnectivityOfSurfaceVertices returns the number of connected components of the vertex graph independently of the iteration order of the hash map, and throws exactly when some vertex has an edge to a vertex that is not in the map.", "quantifier": "all vertex maps with symmetric edges, all iteration orders", "why_tests_cant": "hash iteration order is unspecified; graphs of any size", "anchors": ["include/sdf_tools/topology_computation.hpp:ComputeConnectivityOfSurfaceVertices"]}
{"id": "C37", "title": "Topology of solid boxes: no holes, no voids", "statement": "For a component that is a solid axis-aligned box, ComputeComponentTopology reports 0 holes and 0 voids.", "quantifier": "all box sizes and positions", "why_tests_cant": "all sizes; fails only when the box is at least two cells thick on every axis", "anchors": ["include/sdf_tools/topology_computation.hpp:ComputeHolesInSurface", "src/sdf_tools/collision_map.cpp:CollisionMapGrid::ComputeComponentTopology"]}
{"id": "C38", "title": "Candidate corner test", "statement": "CheckIfCandidateCorner returns (true,true) exactly for in-bounds cells with at least two face-adjacent in-bounds neighbours whose component label differs, (false,true) for the other in-bounds cells and (false,false) out of bounds.", "quantifier": "all grids, labels and indices", "why_tests_cant": "all label layouts", "anchors": ["include/sdf_tools/collision_map.hpp:CheckIfCandidateCorner"]}
{"id": "C39", "title": "Resampling to the same resolution is the identity; resampling never loses obstacles", "statement": "Resample(resolution of the map) returns a map with the same cells, and for every new resolution each filled cell centre of the old map lies in a filled cell of the new map unless a later cell centre falls into the same new cell; when resampling finer, every new cell whose centre lies in an old cell has that old cell's value.", "quantifier": "all maps, all new resolutions", "why_tests_cant": "all resolutions and shapes", "anchors": ["src/sdf_tools/collision_map.cpp:CollisionMapGrid::Resample", "src/sdf_tools/tagged_object_collision_map.cpp:TaggedObjectCollisionMapGrid::Resample"]}
{"id": "C40", "title": "Object-filtered SDFs", "statement": "TaggedObjectCollisionMapGrid::ExtractSignedDistanceField treats a cell as filled iff (the object list is empty or contains its object id) and it is occupied (> 0.5, or = 0.5 when unknown_is_filled); MakeAllObjectSDFs contains exactly one SDF per nonzero object id present in the grid.", "quantifier": "all tagged maps, all object lists (with duplicates)", "why_tests_cant": "all contents and lists", "anchors": ["include/sdf_tools/tagged_object_collision_map.hpp:ExtractSignedDistanceField", "include/sdf_tools/tagged_object_collision_map.hpp:MakeObjectSDFs", "include/sdf_tools/tagged_object_collision_map.hpp:MakeAllObjectSDFs"]}
{"id": "C41", "title": "Free-and-named-objects SDF trichotomy", "statement": "In ExtractFreeAndNamedObjectsSignedDistanceField a cell is positive iff it is free, negative iff it belongs to a named (nonzero id) occupied object, and exactly 0 iff it is occupied but unnamed (id 0).", "quantifier": "all tagged maps, both unknown settings", "why_tests_cant": "all contents", "anchors": ["include/sdf_tools/tagged_object_collision_map.hpp:ExtractFreeAndNamedObjectsSignedDistanceField"]}
{"id": "C42", "title": "Convex segments are a partition consistent with object ids", "statement": "After UpdateConvexSegments returning n: every cell has label 0 or a label in 1..n, every label in 1..n is used, two cells share a nonzero label iff they are linked by a chain of face-adjacent eligible cells of the same object whose extrema are pairwise within the threshold; in particular a segment never mixes object ids.", "quantifier": "all tagged maps, all extrema maps, thresholds", "why_tests_cant": "paths of arbitrary length", "anchors": ["src/sdf_tools/tagged_object_collision_map.cpp:UpdateConvexSegments"]}
{"id": "C43", "title": "The convex-segments-valid flag is defined and never stale", "statement": "AreConvexSegmentsValid is false on a freshly constructed map, and whenever it is true the stored convex segments are those of the current contents, for every history of SetValue, GetMutable-then-write and UpdateConvexSegments calls.", "quantifier": "all constructors, all histories", "why_tests_cant": "history property; uninitialised memory is not observable reliably", "anchors": ["include/sdf_tools/tagged_object_collision_map.hpp:TaggedObjectCollisionMapGrid constructors", "include/sdf_tools/tagged_object_collision_map.hpp:SetValue", "src/sdf_tools/tagged_object_collision_map.cpp:UpdateConvexSegments"]}
{"id": "C44", "title": "Per-object display markers", "statement": "ExportForDisplayUniqueNs never indexes its marker list out of range; every returned marker has as many points as colours and at least one point; every cell of a drawn object with positive alpha appears in exactly one marker, the one of its object.", "quantifier": "all tagged maps, all object lists (with duplicates)", "why_tests_cant": "index bookkeeping over all insertion orders", "anchors": ["src/sdf_tools/tagged_object_collision_map.cpp:ExportForDisplayUniqueNs"]}
{"id": "C45", "title": "Display exports show exactly the selected cells", "statement": "CollisionMapGrid::ExportForDisplay and ExportForSeparateDisplay emit one point and one colour per cell (whose colour has positive alpha), in scan order, with filled, free and unknown cells partitioned without omission or overlap. The separate display shows each class in the colour given for it.", "quantifier": "all grids, colours", "why_tests_cant": "all contents", "anchors": ["src/sdf_tools/collision_map.cpp:ExportForDisplay", "src/sdf_tools/collision_map.cpp:ExportForSeparateDisplay"]}
{"id": "C46", "title": "SDF display colours stay in range", "statement": "SignedDistanceField::ExportForDisplay emits exactly one point and colour per cell; for finite fields all colour channels are in [0,1], positive cells are green, negative cells red, zero cells blue; no division by zero happens.", "quantifier": "all finite SDFs", "why_tests_cant": "all contents", "anchors": ["src/sdf_tools/sdf.cpp:ExportForDisplay"]}
{"id": "C47", "title": "SDF_Builder cache protocol", "statement": "For every history of calls on an SDF_Builder: GetCachedSDF (GetCachedCollisionMap) returns exactly the result of the last successful UpdateSDF (UpdateCollisionMap), throws if there was none; UpdateSDF(USE_CACHED) never contacts the service and throws without a planning scene; an invalid mode or an uninitialised builder throws and changes nothing.", "quantifier": "all histories of calls, all service answers", "why_tests_cant": "history property", "anchors": ["src/sdf_tools/sdf_builder.cpp:UpdateSDF", "src/sdf_tools/sdf_builder.cpp:GetCachedSDF", "src/sdf_tools/sdf_builder.cpp:UpdateCollisionMap", "src/sdf_tools/sdf_builder.cpp:GetCachedCollisionMap"]}
{"id": "C48", "title": "A failed planning-scene request is not mistaken for an empty scene", "statement": "If the planning scene service call fails, UpdateSDF does not return an SDF computed as if the call had succeeded.", "quantifier": "all histories, all service outcomes", "why_tests_cant": "needs fault injection at every call", "anchors": ["src/sdf_tools/sdf_builder.cpp:UpdateSDF", "src/sdf_tools/sdf_builder.cpp:UpdateCollisionMap"]}
{"id": "C49", "title": "2D image SDF: sign, soundness and completeness", "statement": "update_sdf on an image with at least one filled and one empty pixel gives every filled pixel a finite value <= -1 and every empty pixel a finite value >= 1, whose magnitude is exactly the Euclidean distance to some pixel of the opposite class (never an under-estimate); without a filled (empty) pixel all values are +inf (-inf).", "quantifier": "all image sizes and contents", "why_tests_cant": "all images", "anchors": ["src/image_2d_sdf_node.cpp:update_sdf", "src/image_2d_sdf_node.cpp:update_partial_sdf"]}
{"id": "C50", "title": "Python wrapper indexing", "statement": "utils_3d.compute_sdf_and_gradient(env) on a non-empty environment returns a distance array of env's shape whose entry [y,x,z] is the SDF value of the cell the wrapper filled from env[y,x,z], negative exactly where env is 1 and positive elsewhere, and a gradient array whose entry [y,x,z,c] is component c of that cell's gradient. The same for utils_2d.compute_sdf_and_gradient with [y,x] and two gradient components.", "quantifier": "all environment shapes and contents, all resolutions", "why_tests_cant": "transposition errors are invisible on symmetric or square test inputs", "anchors": ["src/sdf_tools/utils_3d.py:compute_sdf_and_gradient", "src/sdf_tools/utils_2d.py:compute_sdf_and_gradient", "include/sdf_tools/sdf.hpp:GetFullGradient"]}
{"id": "C51", "title": "ExtractConnectedComponents returns the regions as index lists", "statement": "On any reachable CollisionMapGrid, ExtractConnectedComponents does not throw and returns one list per component; list k (0-based) contains exactly the cells of the component with label k+1, each once, in scan order, and the labels are those of the current occupancies.", "quantifier": "all histories of SetValue, GetMutable-then-write and UpdateConnectedComponents on fresh maps with fewer than 2^32 cells", "why_tests_cant": "The at() access is only safe because of an invariant over all histories (valid flag implies labels in 1..n); a test samples a few histories.", "anchors": ["src/sdf_tools/collision_map.cpp: CollisionMapGrid::ExtractConnectedComponents"]}
{"id": "C52", "title": "Surface exports select exactly the cells that touch another class", "statement": "ExportSurfacesForDisplay draws (in scan order, one colour per point) exactly those cells with a visible class colour that have a 26-neighbour inside the grid of another class (filled, free, unknown), for maps without NaN occupancies. ExportSurfacesForSeparateDisplay draws the same cells in one marker per class, in the colour given for the class.", "quantifier": "all grids, all non-NaN occupancies, all colours", "why_tests_cant": "Boundary clamping of the neighbour loops and the three-way comparison have to be right for every position and every combination of classes.", "anchors": ["include/sdf_tools/collision_map.hpp: CollisionMapGrid::IsSurfaceIndex", "src/sdf_tools/collision_map.cpp: ExportSurfacesForDisplay", "src/sdf_tools/collision_map.cpp: ExportSurfacesForSeparateDisplay"]}
{"id": "C53", "title": "Projection out of collision always ends", "statement": "For every field, start location and minimum distance, with the default step size multiplier, ProjectOutOfCollisionToMinimumDistance returns or throws after finitely many steps.", "quantifier": "all fields, all start locations, all minimum distances", "why_tests_cant": "a test cannot establish termination for every field and start; the loop has no iteration limit", "anchors": ["include/sdf_tools/sdf.hpp: ProjectOutOfCollisionToMinimumDistanceGridFrame, ProjectOutOfCollisionToMinimumDistance4d"]}
{"id": "C54", "title": "The local extrema map does not depend on how the grid is rotated in the world", "statement": "Computing the local extrema map of two fields with the same cell values and resolution gives the same map in grid coordinates, whatever the rotation and translation of their origin transforms.", "quantifier": "all cell values, dimensions, resolutions and pairs of rigid origin transforms", "why_tests_cant": "It is a relation between two runs with arbitrary origins; tests use axis-aligned origins, for which the world-frame and grid-frame gradients coincide.", "anchors": ["src/sdf_tools/sdf.cpp:GetNextFromGradient", "src/sdf_tools/sdf.cpp:FollowGradientsToLocalExtremaUnsafe", "include/sdf_tools/sdf.hpp:GetGradient"]}
{"id": "C55", "title": "A loaded field has as many stored cells as its cell counts say", "statement": "Whatever bytes a file contains, if LoadFromFile returns a field instead of throwing, the number of stored cells is the product of the three cell counts (so every in-bounds index has storage).", "quantifier": "all byte strings as file contents", "why_tests_cant": "It ranges over all files, including damaged and hostile ones; tests only load files the library wrote.", "anchors": ["src/sdf_tools/sdf.cpp:LoadFromFile", "src/sdf_tools/sdf.cpp:DeserializeSelf"]}
{"id": "C56", "title": "Collision-only display shows exactly the cells in collision", "statement": "SignedDistanceField::ExportForDisplayCollisionOnly emits one point, at the cell centre, for each cell with distance <= 0 and for no other cell, in scan order, with one red marker colour.", "quantifier": "all finite SDFs", "why_tests_cant": "Holds for every content of the field; tests look at rendered examples.", "anchors": ["src/sdf_tools/sdf.cpp:ExportForDisplayCollisionOnly"]}
{"id": "C57", "title": "Holes and voids do not depend on hash iteration order", "statement": "The pair (holes, voids) reported for a component, or the exception, is the same for every iteration order of every hash map involved and every order of the surface cells, and the computation always terminates.", "quantifier": "all components of all shapes, all iteration orders", "why_tests_cant": "hash iteration order is unspecified and a run sees one order; shapes of any size", "anchors": ["include/sdf_tools/topology_computation.hpp:ComputeHolesInSurface", "include/sdf_tools/topology_computation.hpp:ComputeConnectivityOfSurfaceVertices"]}
{"id": "C58", "title": "Surface lists, surface maps and index maps convert losslessly", "statement": "ExtractStaticSurface(ConvertToDynamicSurface(l)) contains each cell of l exactly once and nothing else; ConvertToDynamicSurface(ExtractStaticSurface(m)) is m without its entries whose value is not 1; BuildSurfaceIndexMap(l) maps each cell of l to its (last) position and nothing else.", "quantifier": "all lists, all surface maps, all iteration orders", "why_tests_cant": "hash iteration order is unspecified; any size", "anchors": ["include/sdf_tools/topology_computation.hpp:ExtractStaticSurface", "include/sdf_tools/topology_computation.hpp:ConvertToDynamicSurface", "include/sdf_tools/topology_computation.hpp:BuildSurfaceIndexMap"]}
{"id": "C59", "title": "Tagged components: exact labelling that is never stale", "statement": "UpdateConnectedComponents on a tagged map numbers exactly the face-connected regions of equal fill status, leaves occupancies, object ids and convex segments untouched, and whenever GetNumConnectedComponents reports valid the stored labels are those of the current contents, for every history of writes, component updates and segment updates.", "quantifier": "all tagged maps, all histories of calls", "why_tests_cant": "history property over all contents; paths of arbitrary length", "anchors": ["src/sdf_tools/tagged_object_collision_map.cpp:UpdateConnectedComponents", "include/sdf_tools/tagged_object_collision_map.hpp:SetValue", "include/sdf_tools/tagged_object_collision_map.hpp:GetNumConnectedComponents"]}
{"id": "C60", "title": "Tagged maps and collision maps answer surface queries alike", "statement": "A tagged map and a collision map with the same dimensions, occupancies and component labels give the same answers to IsSurfaceIndex, IsConnectedComponentSurfaceIndex, CheckIfCandidateCorner and the surface extractions.", "quantifier": "all pairs of maps, all indices", "why_tests_cant": "two separate implementations must agree on every grid", "anchors": ["src/sdf_tools/tagged_object_collision_map.cpp:IsSurfaceIndex", "src/sdf_tools/tagged_object_collision_map.cpp:IsConnectedComponentSurfaceIndex", "src/sdf_tools/collision_map.cpp:IsSurfaceIndex"]}
{"id": "C61", "title": "Tagged maps and collision maps compute the same component topology", "statement": "ComputeComponentTopology on a tagged map gives the same result as CollisionMapGrid::ComputeComponentTopology on a collision map with the same occupancies and component labels.", "quantifier": "all tagged maps, both recompute settings", "why_tests_cant": "two separate implementations must agree on every grid", "anchors": ["src/sdf_tools/tagged_object_collision_map.cpp:ComputeComponentTopology", "src/sdf_tools/tagged_object_collision_map.cpp:ExtractComponentSurfaces", "src/sdf_tools/collision_map.cpp:ComputeComponentTopology"]}
{"id": "C62", "title": "Reported extrema of the free-and-named-objects SDF", "statement": "The maximum and minimum returned with ExtractFreeAndNamedObjectsSignedDistanceField are the maximum and minimum of the values stored in the returned field.", "quantifier": "all tagged maps, both unknown settings", "why_tests_cant": "all contents, including maps with no free or no named cell", "anchors": ["include/sdf_tools/tagged_object_collision_map.hpp:ExtractFreeAndNamedObjectsSignedDistanceField"]}
{"id": "C63", "title": "Tagged map displays show exactly the selected cells", "statement": "ExportForDisplay (both overloads), ExportForDisplayOccupancyOnly, ExportConnectedComponentsForDisplay and ExportConvexSegmentForDisplay emit, in scan order, exactly one point and one colour for each cell they select (listed objects, occupancy class, all cells, one segment) whose colour has positive alpha, and nothing else.", "quantifier": "all tagged maps, object lists, colour maps, colour generators", "why_tests_cant": "all contents and selections", "anchors": ["src/sdf_tools/tagged_object_collision_map.cpp:ExportForDisplay", "src/sdf_tools/tagged_object_collision_map.cpp:ExportForDisplayOccupancyOnly", "src/sdf_tools/tagged_object_collision_map.cpp:ExportConnectedComponentsForDisplay", "src/sdf_tools/tagged_object_collision_map.cpp:ExportConvexSegmentForDisplay"]}
{"id": "C64", "title": "Contour displays show exactly the boundary cells of the drawn objects", "statement": "The contour exports show a cell iff its object is drawn, it is an obstacle (unknown counts as filled), one of its 26 neighbours in the grid is not an obstacle cell of the same object, and its colour has positive alpha; they never throw from a map or marker lookup and put each cell in its object's marker.", "quantifier": "all tagged maps, object lists, colour maps", "why_tests_cant": "the 1.9-resolution distance threshold must classify every cell of every map although the distance field is approximate", "anchors": ["src/sdf_tools/tagged_object_collision_map.cpp:ExportContourOnlyForDisplay", "src/sdf_tools/tagged_object_collision_map.cpp:ExportContourOnlyForDisplayUniqueNs"]}
{"id": "C65", "title": "2D image SDF is the exact Euclidean distance transform", "statement": "For every image, the magnitude of each pixel's value is the Euclidean distance to the nearest pixel of the other class.", "quantifier": "all image sizes and contents, all pixels", "why_tests_cant": "errors of sweep-based transforms appear only for rare arrangements of pixels", "anchors": ["src/image_2d_sdf_node.cpp:update_partial_sdf", "src/image_2d_sdf_node.cpp:compare"]}
{"id": "C66", "title": "2D image SDF: published images are well defined", "statement": "For every image the published raw image stores each value's magnitude in the channel of its sign, and every channel of the preview image is computed without undefined conversions; filled pixels are blue and empty pixels red.", "quantifier": "all image sizes and contents, all pixels", "why_tests_cant": "undefined conversions do not fail visibly; all images", "anchors": ["src/image_2d_sdf_node.cpp:camera_cb"]}
{"id": "C67", "title": "SDF_Builder results describe the current planning scene", "statement": "For every history of calls, UpdateSDF and UpdateCollisionMap return the field and map of the planning scene obtained by applying all scene messages and service answers so far in order: a map cell is 1, and its SDF value negative, exactly where the scene collides at the cell centre, independently of the robot state left by earlier calls; repeating USE_CACHED returns the same field.", "quantifier": "all histories of calls, all scenes and service answers", "why_tests_cant": "history property; the robot state is mutated by every query", "anchors": ["src/sdf_tools/sdf_builder.cpp:UpdateSDFFromPlanningScene", "src/sdf_tools/sdf_builder.cpp:UpdateCollisionMapFromPlanningScene"]}
{"id": "C68", "title": "SDF_Builder calls are defined behaviour", "statement": "No history of public calls on an SDF_Builder, with any out-of-bounds value, has undefined behaviour.", "quantifier": "all histories, all out-of-bounds values", "why_tests_cant": "undefined conversions do not fail visibly", "anchors": ["src/sdf_tools/sdf_builder.cpp:UpdateSDFFromPlanningScene", "src/sdf_tools/sdf_builder.cpp:UpdatePlanningSceneFromMessage"]}
{"id": "C69", "title": "SDF_Builder's robot can reach every cell", "statement": "The joint limits of the generated robot description contain the position of every cell centre of the grid.", "quantifier": "all grid sizes and origins", "why_tests_cant": "holds for small grids near the origin, fails for larger ones", "anchors": ["src/sdf_tools/sdf_builder.cpp:GenerateSDFComputeBotURDFString"]}
{"id": "C70", "title": "Array helpers index by [x,y,...]", "statement": "utils_3d.get_gradient(sdf)[x,y,z] is the world-frame edge gradient of cell (x,y,z); utils_2d.sdf_to_np, compute_gradient and grid_to_np are indexed [x,y] (transposed with respect to compute_sdf_and_gradient), and sdf_to_np succeeds on a non-empty field exactly when it has one layer.", "quantifier": "all fields and maps of every size", "why_tests_cant": "square or symmetric inputs hide index swaps", "anchors": ["src/sdf_tools/utils_3d.py:get_gradient", "src/sdf_tools/utils_2d.py:sdf_to_np", "src/sdf_tools/utils_2d.py:compute_gradient", "src/sdf_tools/utils_2d.py:grid_to_np"]}
{"id": "C71", "title": "gradient_to_np accepts gradient grids", "statement": "utils_2d.gradient_to_np converts the gradient grid of any one-layer field into an array indexed [x,y,...] without raising.", "quantifier": "all gradient grids produced by GetFullGradient", "why_tests_cant": "the helper needs a shape argument that holds for every size", "anchors": ["src/sdf_tools/utils_2d.py:gradient_to_np", "src/sdf_tools/utils_2d.py:to_np"]}
{"id": "C72", "title": "GetAutoDiffGradient is the derivative of EstimateDistance", "statement": "For every location inside the grid GetAutoDiffGradient returns three numbers, and wherever EstimateDistance is differentiable by construction (strictly inside the volume, off the planes through inner cell centres) they are its partial derivatives with respect to the world location; on the excluded planes they are the one-sided derivative towards increasing grid coordinates. Outside the grid the result is empty, and the call never throws.", "quantifier": "all fields, resolutions, origin transforms and locations", "why_tests_cant": "a derivative is a limit over all nearby locations", "anchors": ["include/sdf_tools/sdf.hpp:GetAutoDiffGradient", "include/sdf_tools/sdf.hpp:EstimateDistanceInterpolateFromNeighbors"]}
{"id": "C73", "title": "GetSmoothGradient outcome", "statement": "For a non-zero window GetSmoothGradient returns an empty vector outside the grid, throws exactly when some axis has neither shifted location inside the grid, and otherwise returns for each axis the difference quotient of EstimateDistance over the widest available stretch of the window.", "quantifier": "all fields, locations and non-zero windows of either sign", "why_tests_cant": "the choice of stretch depends on the location, the window and the rotation of the grid together", "anchors": ["include/sdf_tools/sdf.hpp:GetSmoothGradient", "include/sdf_tools/sdf.hpp:ComputeAxisSmoothGradient"]}
{"id": "C74", "title": "The three gradient queries agree on affine fields", "statement": "If the stored distances are an affine function of the cell index and do not change sign, EstimateDistance is affine on the whole grid and GetGradient, GetSmoothGradient and GetAutoDiffGradient return the same vector wherever they return three numbers: the slope of the field in the world frame.", "quantifier": "all affine fields, rigid origin transforms, locations, windows and edge settings", "why_tests_cant": "agreement has to hold at every location including edges and rotated frames", "anchors": ["include/sdf_tools/sdf.hpp:GetGradient", "include/sdf_tools/sdf.hpp:GetSmoothGradient", "include/sdf_tools/sdf.hpp:GetAutoDiffGradient"]}
{"id": "C75", "title": "The hashed map's display shows every stored cell once", "statement": "DynamicSpatialHashedCollisionMapGrid::ExportForDisplay returns a chunk marker iff some stored chunk is uniform and a cell marker iff some other initialised chunk has a cell. The chunk marker draws one cube of chunk size per uniform chunk, the cell marker one cube of cell size per cell, each in the collision, free or unknown colour of its occupancy. The iteration order of the hash map only permutes the cubes.", "quantifier": "all stored chunks in any hash iteration order, all positions, transforms and colours", "why_tests_cant": "unbounded chunk sets and every hash order", "anchors": ["src/sdf_tools/dynamic_spatial_hashed_collision_map.cpp:DynamicSpatialHashedCollisionMapGrid::ExportForDisplay"]}
{"id": "C76", "title": "The hashed map's initialised flag is defined", "statement": "IsInitialized is false on a default-constructed map and true on a map constructed with arguments, for every later history of SetCell and SetChunk calls; AreComponentsValid is never true because no components are ever computed.", "quantifier": "all constructors, all histories of updates, all initial memory contents", "why_tests_cant": "an uninitialised member reads as whatever was in memory", "anchors": ["src/sdf_tools/dynamic_spatial_hashed_collision_map.cpp:DynamicSpatialHashedCollisionMapGrid constructors", "src/sdf_tools/dynamic_spatial_hashed_collision_map.cpp:IsInitialized", "src/sdf_tools/dynamic_spatial_hashed_collision_map.cpp:AreComponentsValid"]}
{"id": "C77", "title": "Resampling a tagged map copies whole cells", "statement": "Every cell of TaggedObjectCollisionMapGrid::Resample(r') holds a whole copy of the last old cell in scan order whose centre it contains, or the out-of-bounds value if it contains none. No new object id appears. The result never reports valid components. Resampling to the same or a finer resolution keeps every old cell at its centre.", "quantifier": "all maps, all new resolutions, all new cell counts", "why_tests_cant": "all resolutions and shapes", "anchors": ["src/sdf_tools/tagged_object_collision_map.cpp:TaggedObjectCollisionMapGrid::Resample"]}
{"id": "C78", "title": "Surface display shows exactly the valid entries", "statement": "TaggedObjectCollisionMapGrid::ExportSurfaceForDisplay draws one point per entry of the surface map whose value is 1 and nothing else, all in the requested colour; the hash iteration order only permutes the points.", "quantifier": "all surface maps in any iteration order", "why_tests_cant": "every hash order", "anchors": ["src/sdf_tools/tagged_object_collision_map.cpp:TaggedObjectCollisionMapGrid::ExportSurfaceForDisplay"]}
{"id": "C79", "title": "Batch wrapper is the stack of the per-item results", "statement": "utils_3d_tensorflow.compute_sdf_and_gradient_batch on a non-empty batch of same-shaped environments succeeds, and entry [b, ...] of its two results is entry [...] of compute_sdf_and_gradient applied to item b with item b's resolution. An empty batch or a batch larger than the inputs raises.", "quantifier": "all batch sizes, environments and resolutions", "why_tests_cant": "all shapes and batch sizes", "anchors": ["src/sdf_tools/utils_3d_tensorflow.py:compute_sdf_and_gradient_batch"]}
{"id": "C80", "title": "The generator node shows the collision map and the distance field of the same scene", "statement": "In every pass of the planning scene SDF generator node the published collision map has one point per cell whose centre collides in the current planning scene, and the published signed distance field is the field of that same scene: its sign is negative exactly at those cells. Pass k reflects the initial scene with the answers of the planning scene service up to pass k applied in order, and the node keeps running.", "quantifier": "every grid, every planning scene, every sequence of service answers and failures, every pass", "why_tests_cant": "The node's state depends on the whole history of service answers; a test fixes one scene and one answer, and undefined conversions may seem to work on one compiler.", "anchors": ["src/sdf_generation_node.cpp: main", "src/sdf_generation_node.cpp: ExportCollisionMapForDisplay", "src/sdf_tools/sdf_builder.cpp: SDF_Builder::UpdateCollisionMap", "src/sdf_tools/sdf_builder.cpp: SDF_Builder::UpdateSDF"]}
{"id": "C81", "title": "Convex segmentation with a virtual border is complete", "statement": "As documented, UpdateConvexSegments(threshold, add_virtual_border = true) segments all free and filled areas completely: afterwards every cell that is free (occupancy below 0.5) or belongs to an object has a non-zero convex segment.", "quantifier": "all tagged maps, contents, resolutions, origins and thresholds", "why_tests_cant": "The extremum of a cell depends on the whole distance field and on the path through it; completeness must hold for every arrangement of objects near the faces.", "anchors": ["include/sdf_tools/tagged_object_collision_map.hpp: UpdateConvexSegments", "src/sdf_tools/tagged_object_collision_map.cpp: UpdateConvexSegments", "src/sdf_tools/sdf.cpp: ComputeLocalExtremaMap"]}
{"id": "C82", "title": "Convex segmentation inside an unnamed filled shell is complete", "statement": "As documented, UpdateConvexSegments(threshold, add_virtual_border = false) on a map whose outside cells (for every axis with more than one cell) have occupancy >= 0.5 and object id 0 gives every free or object cell in the interior a non-zero convex segment.", "quantifier": "all tagged maps with such a shell, contents, resolutions, origins and thresholds", "why_tests_cant": "Completeness must hold for every arrangement of objects inside the shell.", "anchors": ["include/sdf_tools/tagged_object_collision_map.hpp: UpdateConvexSegments", "src/sdf_tools/tagged_object_collision_map.cpp: UpdateConvexSegments"]}
{"id": "C83", "title": "Convex segments are the extremum classes", "statement": "UpdateConvexSegments ends normally for every map, threshold, origin and border setting. The segment ids 1..n number, in scan order of their first cell, the classes of free or object cells with a finite local extremum that are linked by chains of face-adjacent cells of the same object whose local extrema are closer than the threshold. Every other cell gets segment 0. Occupancy, object id and component of every cell are unchanged, and n is what the call returns.", "quantifier": "all tagged maps, contents, resolutions, origins, thresholds, both border settings", "why_tests_cant": "The segmentation composes distance field, path following and flood fill; termination and the class structure are claims about all grids.", "anchors": ["src/sdf_tools/tagged_object_collision_map.cpp: UpdateConvexSegments", "src/sdf_tools/sdf.cpp: ComputeLocalExtremaMap", "include/sdf_tools/topology_computation.hpp: ComputeConnectedComponents"]}
{"id": "C84", "title": "Access by position is access to the cell containing the position", "statement": "On a CollisionMapGrid or TaggedObjectCollisionMapGrid, SetValue and GetMutable called with a position (3 coordinates, a 3-entry vector or a 4-entry vector with last entry 1) succeed exactly if the position lies in the half-open volume of the grid. After any history of writes by index and by position, mixed with component and segment updates, the occupancy (and object id) read at a cell is that of the last write that named the cell or whose position lay in its half-open box. A refused write changes no cell. CheckIfCandidateCorner by position answers for the containing cell.", "quantifier": "all maps, rigid or affine origins with correct inverse, cell sizes, positions, histories", "why_tests_cant": "Rounding to cells, the rotated origin and the choice of overload interact over an unbounded set of positions and call histories.", "anchors": ["include/sdf_tools/collision_map.hpp: SetValue3d, SetValue4d, GetMutable3d, GetMutable4d, CheckIfCandidateCorner3d", "include/sdf_tools/tagged_object_collision_map.hpp: SetValue3d, SetValue4d, GetMutable3d, GetMutable4d, CheckIfCandidateCorner3d"]}
{"id": "C85", "title": "Distances on two-dimensional maps are finite, bounded and without jumps", "statement": "On a grid one cell thick along some axis and with at least one source, the distance field reports a finite distance for every cell. It is at least the Euclidean distance to the nearest source and at most the Manhattan distance to every source (in cells), and the values of two cells that share a face differ by at most one cell. Hence a signed distance field extracted from such a map with both filled and free cells stores at each cell plus or minus the rounded distance to a cell of the opposite class, never above the Manhattan distance to any such cell; in exact arithmetic face neighbours of the same class differ by at most the resolution, and face neighbours of opposite class hold exactly plus and minus the resolution.", "quantifier": "all grids of thickness one along an axis (up to the size limit), all source lists, fill predicates and cells", "why_tests_cant": "The propagation is not exact, and whether a late improvement is lost depends on the global arrangement of sources; no finite set of maps shows that none is lost.", "anchors": ["include/sdf_tools/sdf_generation.hpp: BuildDistanceField, ExtractSignedDistanceField"]}
{"id": "C86", "title": "Stored distances are accurate in IEEE arithmetic", "statement": "With IEEE 754 double arithmetic and float storage (round to nearest, ties to even) and a resolution that is a double between 2^-126 and 2^100, every finite value an extracted signed distance field stores is negative exactly in filled cells, and its magnitude differs from the metric distance to some cell of the opposite class by a relative error of at most 2^-24 + 2^-51. So it is never below the distance to the nearest cell of the opposite class by more than that. It equals that distance up to the relative error where the nearest cell is less than sqrt 8 cells away; on two-dimensional maps with both classes every value is finite and at most sqrt 2 times that distance, up to the relative error.", "quantifier": "all grids up to the size limit, fill predicates, resolutions in the range, cells", "why_tests_cant": "The error bound combines three roundings for every squared distance and every resolution; a test compares a few values with a tolerance.", "anchors": ["include/sdf_tools/sdf_generation.hpp: ExtractSignedDistanceField", "include/sdf_tools/sdf.hpp: SignedDistanceField"]}
{"id": "C87", "title": "The Python wrappers return accurate distances", "statement": "utils_2d.compute_sdf_and_gradient on any array with both 0 and 1 entries returns an array of the same shape whose entries are finite and negative exactly where the input is 1; the magnitude at a pixel is between the metric distance to the nearest pixel of the other kind and sqrt 2 times that distance, and it is that distance where it is less than sqrt 8 pixels, always up to a relative error of 2^-24 + 2^-51. utils_3d.compute_sdf_and_gradient returns values that are infinite or at least the distance to the nearest voxel of the other kind, and that distance where it is less than sqrt 8 voxels, up to the same error.", "quantifier": "all arrays up to the size limit, resolutions between 2^-126 and 2^100, positions", "why_tests_cant": "The array handling, the propagation and the rounding all enter; tests compare a few small arrays.", "anchors": ["src/sdf_tools/utils_2d.py: compute_sdf_and_gradient", "src/sdf_tools/utils_3d.py: compute_sdf_and_gradient", "include/sdf_tools/sdf_generation.hpp: BuildDistanceField"]}
{"id": "C88", "title": "Gradient queries by cell index answer for the cell centre", "statement": "GetAutoDiffGradient and GetSmoothGradient asked by index give the answer for the world location of that cell's centre, and nothing for an index outside the grid. At a centre GetAutoDiffGradient returns, rotated into the world frame, the difference quotient towards the next cell on each axis (towards the previous one at the last cell, zero on an axis of one cell) of the distances to the surface. Where the differences on the two sides of a cell disagree, EstimateDistance has no derivative at its centre, so this one-sided answer is all there can be.", "quantifier": "all fields, resolutions, rigid origin transforms and indices", "why_tests_cant": "the header itself warns that the query does not work at cell centres; what it does there is a statement about every field and frame", "anchors": ["include/sdf_tools/sdf.hpp:GetAutoDiffGradient", "include/sdf_tools/sdf.hpp:GetSmoothGradient"]}
{"id": "C89", "title": "2D image SDF is continuous", "statement": "For every image with filled and empty pixels, the distances reported by update_sdf at two pixels of the same class differ by at most the length of the best path of horizontal, vertical and diagonal steps between them; at neighbouring pixels by at most their Euclidean distance.", "quantifier": "all image sizes and contents, all pairs of pixels", "why_tests_cant": "a sweep that misses one direction breaks it only on rare arrangements of pixels", "anchors": ["src/image_2d_sdf_node.cpp:update_sdf", "src/image_2d_sdf_node.cpp:update_partial_sdf"]}
{"id": "C90", "title": "Default-constructed objects hold no cells and stay empty", "statement": "A default-constructed SignedDistanceField, CollisionMapGrid or TaggedObjectCollisionMapGrid reports every index as outside, refuses every SetValue and GetMutable (by index or by location), and its component and convex-segment updates terminate and count zero, after any sequence of calls; a fresh field is unlocked and fresh maps report their counts as not up to date.", "quantifier": "all histories of calls on a default-constructed object, all indices, locations and values", "why_tests_cant": "ranges over every history and every index; a single accepted write would be a write outside the empty storage", "anchors": ["include/sdf_tools/sdf.hpp:SignedDistanceField()", "include/sdf_tools/collision_map.hpp:CollisionMapGrid()", "include/sdf_tools/tagged_object_collision_map.hpp:TaggedObjectCollisionMapGrid()"]}
{"id": "C91", "title": "Distances to boxes, walls and regular arrangements are exact", "statement": "Where the filled cells (or the free cells) of a map are exactly the cells whose x, y and z coordinates each satisfy a condition of their own - a solid box, a wall, a room, a pillar or a regular arrangement of these - every value of the extracted SDF is, with the sign of its cell, the rounded distance to the nearest cell of the opposite class; in IEEE arithmetic it is that distance up to a relative error of 2^-24 + 2^-51. For one solid box inside the grid the value is the distance to the box outside, and minus the number of cells to the nearest face times the resolution inside.", "quantifier": "all grid sizes, all maps of the described form, all cells, all resolutions", "why_tests_cant": "the claim ranges over all sizes and positions; the same algorithm is known to be wrong for general maps (C10), so that it is right on this class needs proof", "anchors": ["include/sdf_tools/sdf_generation.hpp:ExtractSignedDistanceField", "include/sdf_tools/sdf_generation.hpp:BuildDistanceField"]}
{"id": "C92", "title": "Accuracy of distances with a virtual border", "statement": "With add_virtual_border, every finite SDF value has the sign of its cell and its magnitude is, up to a relative error of 2^-24 + 2^-51, the distance to some cell of the opposite class or some cell of the virtual layer around the grid (axes with one cell get no layer), hence at least the distance to the nearest one. It is the distance to the nearest one where that is less than sqrt 8 cells away, and where the cells of its own class form a box (in particular in a map without obstacles). On a two-dimensional map every value is finite and at most sqrt 2 times that distance.", "quantifier": "all grids with an axis of more than one cell, all predicates, all cells, all resolutions between 2^-126 and 2^100", "why_tests_cant": "index-shift errors between the grid and the enlarged grid show only for special shapes; accuracy is a claim about every map", "anchors": ["include/sdf_tools/sdf_generation.hpp:ExtractSignedDistanceField (add_virtual_border overload)", "include/sdf_tools/collision_map.hpp:ExtractSignedDistanceField"]}
{"id": "C93", "title": "The cubes in a display are the cells of the map", "statement": "In every display message of a signed distance field, a collision map or a tagged-object map, the region of space covered by the i-th cube that a viewer draws is exactly the region of the i-th selected cell, in the frame of the map, for any position and orientation of the map; each selected cell is drawn once, in its colour, and no other cell is drawn.", "quantifier": "all maps and fields, all origin transforms, all resolutions, all colours and object selections, all points of space", "why_tests_cant": "a wrong combination of pose, scale and point frame is invisible for maps with an identity origin and shows only as a picture", "anchors": ["src/sdf_tools/sdf.cpp:ExportForDisplay", "src/sdf_tools/sdf.cpp:ExportForDisplayCollisionOnly", "src/sdf_tools/collision_map.cpp:ExportForDisplay", "src/sdf_tools/collision_map.cpp:ExportForSeparateDisplay", "src/sdf_tools/collision_map.cpp:ExportSurfacesForDisplay", "src/sdf_tools/collision_map.cpp:ExportSurfacesForSeparateDisplay", "src/sdf_tools/collision_map.cpp:ExportConnectedComponentsForDisplay", "src/sdf_tools/tagged_object_collision_map.cpp:DefaultMarker", "src/sdf_tools/tagged_object_collision_map.cpp:ExportForDisplay", "src/sdf_tools/tagged_object_collision_map.cpp:ExportForDisplayUniqueNs", "src/sdf_tools/tagged_object_collision_map.cpp:ExportContourOnlyForDisplay", "src/sdf_tools/tagged_object_collision_map.cpp:ExportContourOnlyForDisplayUniqueNs", "src/sdf_tools/tagged_object_collision_map.cpp:ExportForDisplayOccupancyOnly", "src/sdf_tools/tagged_object_collision_map.cpp:ExportConnectedComponentsForDisplay", "src/sdf_tools/tagged_object_collision_map.cpp:ExportConvexSegmentForDisplay", "src/sdf_tools/tagged_object_collision_map.cpp:ExportSurfaceForDisplay"]}
{"id": "C94", "title": "The cubes in a display of a spatial-hashed map are its chunks and cells", "statement": "In the display of a spatial-hashed collision map the cubes cover exactly the regions of the uniform chunks and of the cells of the other chunks, in the frame of the map, for any position and orientation of the map.", "quantifier": "all chunk lists, all origin transforms, all chunk and cell sizes, all points of space", "why_tests_cant": "invisible for maps with an identity rotation", "anchors": ["src/sdf_tools/dynamic_spatial_hashed_collision_map.cpp:ExportForDisplay"]}
{"id": "C95", "title": "The generator node publishes its messages in the configured frame", "statement": "Both markers published in a pass of the planning-scene SDF generator are in the frame given by the parameter sdf_origin_frame; the first covers exactly the occupied cells, the second all cells.", "quantifier": "all frame names, all collision maps and fields", "why_tests_cant": "the default value of the parameter hides the error", "anchors": ["src/sdf_generation_node.cpp:main", "src/sdf_generation_node.cpp:ExportCollisionMapForDisplay"]}
{"id": "C96", "title": "Markers of one display never replace each other", "statement": "The markers returned together by one display call have pairwise different names (namespace and number); so have the markers of any two different convex segments of any objects, and the displays of a tagged map of different kinds (all objects, one object, occupancy, components, one segment, a surface). A viewer that receives them shows all of them.", "quantifier": "all maps, all object numbers, all segment numbers, all colour maps", "why_tests_cant": "names are built from decimal numbers; a collision (such as 1 and 12 against 11 and 2) exists only for special pairs of numbers", "anchors": ["src/sdf_tools/tagged_object_collision_map.cpp:ExportForDisplayUniqueNs", "src/sdf_tools/tagged_object_collision_map.cpp:ExportContourOnlyForDisplayUniqueNs", "src/sdf_tools/tagged_object_collision_map.cpp:ExportConvexSegmentForDisplay", "src/sdf_tools/collision_map.cpp:ExportForSeparateDisplay", "src/sdf_tools/collision_map.cpp:ExportSurfacesForSeparateDisplay", "src/sdf_tools/dynamic_spatial_hashed_collision_map.cpp:ExportForDisplay"]}
{"id": "C97", "title": "Publishing a display again replaces the earlier picture", "statement": "If a display is published again and again while the map changes, the viewer shows the last state only: the picture does not depend on what was published before.", "quantifier": "all histories of maps, arguments and published messages", "why_tests_cant": "the claim is about every history of publications, and a stale marker appears only after something has disappeared from the map", "anchors": ["src/sdf_tools/sdf.cpp:ExportForDisplay", "src/sdf_tools/collision_map.cpp:ExportForDisplay", "src/sdf_tools/collision_map.cpp:ExportForSeparateDisplay", "src/sdf_tools/tagged_object_collision_map.cpp:ExportForDisplay", "src/sdf_tools/tagged_object_collision_map.cpp:ExportForDisplayUniqueNs", "src/sdf_tools/dynamic_spatial_hashed_collision_map.cpp:ExportForDisplay"]}
{"id": "C98", "title": "The colours of a distance field display are valid in floating point", "statement": "In IEEE arithmetic every colour channel in the display of a signed distance field is a number from 0 to 1; the shade of a free or occupied cell is at least 0.2, follows the documented scale up to float accuracy, never decreases with the distance, and is exactly 1 at the extreme values. The collision-only display draws exactly the cells with values of at most zero.", "quantifier": "all grids of floats including infinities and NaN, all opacities", "why_tests_cant": "rounding errors can leave the range of a channel for special pairs of values only; fields with infinities occur for maps without obstacles", "anchors": ["src/sdf_tools/sdf.cpp:ExportForDisplay", "src/sdf_tools/sdf.cpp:ExportForDisplayCollisionOnly"]}
{"id": "C99", "title": "Reading into an existing object replaces it completely or not at all", "statement": "DeserializeSelf called on any existing object either succeeds, and then the object is the written one and nothing of its previous state remains, or throws, and then the object is unchanged. What LoadFromFile and LoadFromMessageRepresentation return does not depend on any previous state.", "quantifier": "all objects, all buffers (including truncated and corrupt ones), all start positions", "why_tests_cant": "a member that is not overwritten shows only if the previous object differed in it; torn objects arise only for buffers that end at particular places", "anchors": ["src/sdf_tools/sdf.cpp:DeserializeSelf", "src/sdf_tools/collision_map.cpp:DeserializeSelf", "src/sdf_tools/tagged_object_collision_map.cpp:DeserializeSelf", "src/sdf_tools/sdf.cpp:LoadFromFile", "src/sdf_tools/sdf.cpp:LoadFromMessageRepresentation"]}
