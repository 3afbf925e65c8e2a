{"id": "C01", "title": "Grid construction: exactly the valid inputs are accepted, and the grid is the documented one", "statement": "Building a Grid throws exactly when a grid size or cell size is not positive, the vertical cell size exceeds the horizontal one, or a grid size is smaller than the corresponding cell size. Otherwise the grid has 2*round(size/cell)+1 columns per horizontal axis, column i sits at -size+i*cell, level k has its top at -size_z+(k+1)*cell_z, positions are strictly increasing and consecutive positions differ by exactly one cell.", "quantifier": "every five numbers passed to the constructor", "why_tests_cant": "the input space is a continuum; tests check a handful of literal sizes", "anchors": ["soil_simulator/types.cpp: Grid::Grid"]}
{"id": "C02", "title": "Body and SimParam construction accept exactly the documented inputs", "statement": "A Body (Bucket or Blade) is rejected exactly when one of the four points does not have three coordinates, when two of joint/base/teeth coincide, or when the width is not positive; when accepted, the stored reference points are relative to the origin. A SimParam is rejected exactly when the repose angle is outside [0, pi/2], the iteration count is negative or the cell buffer is below 2.", "quantifier": "every list of coordinates, width, angle, iteration count and buffer", "why_tests_cant": "unbounded input space, lists of any length", "anchors": ["soil_simulator/types.cpp: Body::Body", "soil_simulator/types.cpp: SimParam::SimParam"]}
{"id": "C03", "title": "A fresh simulation state is consistent for every grid", "statement": "For every valid grid the state built from it has flat terrain of height zero with the grid's dimensions, no body, no body soil, not in equilibrium, active areas covering [1, 2*half_length) in both directions, and it passes both soil-convention and volume checks with volume 0.", "quantifier": "every valid grid, of any size", "why_tests_cant": "no bound on the number of cells", "anchors": ["soil_simulator/types.cpp: SimOut::SimOut", "soil_simulator/utils.cpp: CheckSoil", "soil_simulator/utils.cpp: CheckVolume"]}
{"id": "C04", "title": "Quaternion product is the Hamilton product", "statement": "The quaternion product used by the simulator is associative, has the unit quaternion as neutral element, is bilinear, anti-commutes with conjugation and multiplies norms: it is the Hamilton product.", "quantifier": "every pair/triple of quaternions", "why_tests_cant": "continuum of inputs", "anchors": ["soil_simulator/utils.cpp: MultiplyQuaternion"]}
{"id": "C05", "title": "Orientation acts as a rigid rotation for every non-zero quaternion", "statement": "Applying an orientation quaternion to points is linear, preserves all dot products (hence lengths, distances and angles) and cross products (no mirroring), does not depend on the scale or the sign of the quaternion, and applying q then r is the same as applying the single quaternion q*r. The unit quaternion is the identity.", "quantifier": "every non-zero quaternion, normalised or not, and every pair of points", "why_tests_cant": "continuum of inputs; unit tests use a few fixed angles", "anchors": ["soil_simulator/utils.cpp: CalcRotationQuaternion"]}
{"id": "C06", "title": "Body-frame coordinates round-trip", "statement": "The position of a soil column expressed in the body frame, rotated by the body orientation and translated by the body position, is the original world position of the column; in particular soil stored in the body frame and replayed under an unchanged pose maps back to the very column it came from.", "quantifier": "every body position, every non-zero orientation, every column and height, every grid whose size is within half a cell of a whole number of cells", "why_tests_cant": "continuum of poses", "anchors": ["soil_simulator/utils.cpp: CalcBodyFramePos", "soil_simulator/utils.cpp: CalcRotationQuaternion", "soil_simulator/body_soil.cpp: UpdateBodySoil"]}
{"id": "C07", "title": "Euler-angle conversion gives a unit quaternion representing the ZYX rotation", "statement": "Converting three Euler angles yields a quaternion of norm one with non-negative scalar part, and applying the resulting orientation is exactly the composition of the three elementary axis rotations of the ZYX convention (in the library's orientation-application convention).", "quantifier": "every three real angles", "why_tests_cant": "continuum of inputs, sign branch", "anchors": ["soil_simulator/utils.cpp: AngleToQuat", "soil_simulator/utils.cpp: CalcRotationQuaternion"]}
{"id": "C08", "title": "Side normal is a unit vector orthogonal to the side, right-handed", "statement": "For every three non-collinear points the computed normal has length one, is orthogonal to both edges, forms a right-handed frame with them, flips when two points are swapped and rotates with the body. For collinear points no normal exists (the computation is 0/0).", "quantifier": "every triple of points", "why_tests_cant": "continuum of inputs; degenerate case", "anchors": ["soil_simulator/utils.cpp: CalcNormal"]}
{"id": "C09", "title": "Body corners move rigidly", "statement": "For every pose the right and left corners of joint, base and teeth are exactly one body width apart and centred on the posed reference point, and all mutual distances between the six corners are independent of the pose.", "quantifier": "every body with non-collinear reference points and every pose with non-zero orientation", "why_tests_cant": "continuum of poses", "anchors": ["soil_simulator/utils.cpp: CalcBodyCornerPos"]}
{"id": "C10", "title": "Movement check compares the largest corner displacement with half a cell", "statement": "The movement check reports no movement exactly when all six body corners moved by less than half of the smaller cell size; it issues the large-movement warning exactly when some corner moved by more than two cell sizes. A repeated pose always reports no movement and a pure translation by d reports movement exactly when |d| is at least half of the smaller cell size.", "quantifier": "every body, every previous pose and every new pose with non-zero orientation", "why_tests_cant": "continuum of poses", "anchors": ["soil_simulator/utils.cpp: CheckBodyMovement"]}
{"id": "C11", "title": "The first step of a new body always updates the soil", "statement": "A newly built body has an all-zero orientation, for which the former corner positions are not numbers; the movement check then reports movement whatever pose is requested, without the large-movement warning.", "quantifier": "every new pose and every body", "why_tests_cant": "depends on not-a-number propagation over all inputs", "anchors": ["soil_simulator/types.cpp: Body::Body", "soil_simulator/utils.cpp: CheckBodyMovement", "soil_simulator/soil_dynamics.cpp: SoilDynamics::Step"]}
{"id": "C12", "title": "A step that reports no movement changes nothing", "statement": "Whenever a simulation step returns false, terrain, body, body soil, their bookkeeping, the active areas, the equilibrium flag, the body pose and the random generator are all exactly as before; whenever it returns true the stored body pose is the requested pose.", "quantifier": "every state, pose, parameter set and random stream", "why_tests_cant": "all states and poses", "anchors": ["soil_simulator/soil_dynamics.cpp: SoilDynamics::Step"]}
{"id": "C13", "title": "Random shuffles only reorder", "statement": "Every shuffle used by the simulator (directions, unstable cells, body-soil entries, noise permutation table) returns a rearrangement of its input for every sequence of random draws; the noise table always contains each of 0..255 exactly once. Every rearrangement can actually be produced.", "quantifier": "every random stream and list", "why_tests_cant": "all random schedules", "anchors": ["soil_simulator/soil_dynamics.cpp: SoilDynamics::Init", "soil_simulator/relax.cpp: RelaxTerrain", "soil_simulator/intersecting_cells.cpp: MoveIntersectingBody"]}
{"id": "C14", "title": "Adding a body wall to a column keeps both old and new wall heights and never overlaps layers", "statement": "When a wall interval is added to a column, every height occupied before and every height of the new interval is occupied afterwards, nothing lying outside the convex hull of touching/merged intervals is added, each occupied layer keeps its minimum below its maximum, and two layers are separated by at least the tolerance afterwards.", "quantifier": "every column content satisfying the layer convention, every new interval with positive height, every positive tolerance", "why_tests_cant": "all relative positions of three intervals including ties", "anchors": ["soil_simulator/body_pos.cpp: IncludeNewBodyPos"]}
{"id": "C15", "title": "The body written into a column covers every rasterised cell of every wall, and only the given columns", "statement": "After a wall given as a non-empty list of grid cells is written (sorted first, as CalcBodyPos does), every listed cell's full vertical extent is occupied in its column, columns not listed are unchanged, and what earlier walls occupied is still occupied.", "quantifier": "every cell list of any length, every previous body", "why_tests_cant": "unbounded lists", "anchors": ["soil_simulator/body_pos.cpp: UpdateBody", "soil_simulator/body_pos.cpp: IncludeNewBodyPos"]}
{"id": "C16", "title": "Line rasterisation is a connected path from the first to the last point", "statement": "Rasterising a segment terminates and lists a sequence of cells that starts in the cell of the first point, moves by exactly one face-adjacent cell at each stage in the direction of the segment, and ends in the cell of the second point.", "quantifier": "every segment of any length (non-degenerate ties excluded explicitly)", "why_tests_cant": "continuum of segments and unbounded length", "anchors": ["soil_simulator/body_pos.cpp: CalcLinePos"]}
{"id": "C17", "title": "Plane decomposition is exact and the inside test is the geometric one", "statement": "For a non-vertical parallelogram or triangle the two coefficients returned for each lattice point reconstruct its horizontal position exactly, the inside flag is set exactly when the point is strictly inside by the tolerance margin, and the reported number of cells is four times the number of inside points, so that the preallocated cell list is filled exactly and never written out of range.", "quantifier": "every parallelogram/triangle, area size and tolerance", "why_tests_cant": "continuum of shapes, unbounded areas", "anchors": ["soil_simulator/body_pos.cpp: DecomposeVectorRectangle", "soil_simulator/body_pos.cpp: DecomposeVectorTriangle", "soil_simulator/body_pos.cpp: CalcRectanglePos", "soil_simulator/body_pos.cpp: CalcTrianglePos"]}
{"id": "C18", "title": "Recomputing the body erases the old body and keeps the active area inside the grid", "statement": "After the body position is recomputed the active area is clamped inside [1, 2*half_length], and a column holds body only if it belongs to the new walls or lay outside the cleared (previous) active area.", "quantifier": "every body, pose, grid and previous state for which the computation stays in the grid", "why_tests_cant": "all poses, including those near the border", "anchors": ["soil_simulator/body_pos.cpp: CalcBodyPos"]}
{"id": "C19", "title": "Moving soil never moves the body", "statement": "Terrain relaxation, body-soil relaxation, intersection resolution and body-soil transport leave the body layers, the active body area and the array sizes unchanged, whatever the number arithmetic does.", "quantifier": "every state, every random stream, any floating-point arithmetic including NaN", "why_tests_cant": "all states and schedules", "anchors": ["soil_simulator/relax.cpp: RelaxTerrain", "soil_simulator/relax.cpp: RelaxBodySoil", "soil_simulator/intersecting_cells.cpp: MoveIntersectingCells", "soil_simulator/body_soil.cpp: UpdateBodySoil"]}
{"id": "C20", "title": "Transporting body soil with the body conserves the soil", "statement": "Moving the soil resting on the body to its new position conserves the total amount of soil, and the per-entry bookkeeping afterwards equals the amount resting on each body layer.", "quantifier": "every state satisfying the soil conventions with heights on the cell lattice, every old and new pose for which no column outside the grid is touched", "why_tests_cant": "all poses and soil distributions", "anchors": ["soil_simulator/body_soil.cpp: UpdateBodySoil"]}
{"id": "C21", "title": "Intersection detection is exact", "statement": "The list of intersecting columns contains a (layer, column) pair exactly when the column is in the active area, the layer is present there and the terrain exceeds the layer bottom by more than the tolerance; each pair is listed once.", "quantifier": "every state, any arithmetic", "why_tests_cant": "all states", "anchors": ["soil_simulator/intersecting_cells.cpp: LocateIntersectingCells"]}
{"id": "C22", "title": "Pushing terrain out of the body resolves every intersection and conserves soil", "statement": "After intersecting terrain is moved no column in the active area has terrain above the bottom of a body layer, the total amount of soil is unchanged, only terrain changes, and terrain decreases only where it intersected.", "quantifier": "every state with body off the grid border and lattice heights, every random stream", "why_tests_cant": "all states and random schedules", "anchors": ["soil_simulator/intersecting_cells.cpp: MoveIntersectingBody"]}
{"id": "C23", "title": "Pushing body soil out of the body conserves soil except for what is reported as removed", "statement": "Body soil that intersects an upper body layer is moved until no body soil intersects an upper layer; the total amount of soil drops exactly by the amounts for which the removal warning is issued, and the bookkeeping stays equal to the amount resting on each layer.", "quantifier": "every state satisfying the soil conventions with body off the border and lattice heights, every random stream", "why_tests_cant": "all states and schedules; growing work list", "anchors": ["soil_simulator/intersecting_cells.cpp: MoveIntersectingBodySoil", "soil_simulator/intersecting_cells.cpp: MoveBodySoil"]}
{"id": "C24", "title": "Intersection resolution terminates without leaving the grid", "statement": "When no body layer touches the outermost ring of columns, both outward searches terminate and never access a column outside the grid.", "quantifier": "every state with the body off the border, every random stream", "why_tests_cant": "unbounded loops; all schedules", "anchors": ["soil_simulator/intersecting_cells.cpp: MoveIntersectingBody", "soil_simulator/intersecting_cells.cpp: MoveIntersectingBodySoil"]}
{"id": "C25", "title": "Unstable-cell detection is exact and safe", "statement": "The list of unstable terrain columns contains exactly the columns of the active area having one of the four neighbours lower than the given threshold by more than the tolerance, and detection never reads outside the grid.", "quantifier": "every terrain and active area, any arithmetic", "why_tests_cant": "all terrains", "anchors": ["soil_simulator/relax.cpp: LocateUnstableTerrainCell"]}
{"id": "C26", "title": "Stability codes mean what the documentation says", "statement": "For every column the stability test returns 0 or one of the documented two-digit codes; each code is returned exactly when the column has the documented layout (body layers present, space under the body, existing body soil) and the receiving surface is lower than the threshold by more than the tolerance.", "quantifier": "every column content and threshold", "why_tests_cant": "all combinations of layers and orderings", "anchors": ["soil_simulator/relax.cpp: CheckUnstableTerrainCell", "soil_simulator/relax.cpp: CheckUnstableBodyCell"]}
{"id": "C27", "title": "Terrain avalanches conserve soil", "statement": "Relaxing the terrain conserves the total amount of soil exactly and keeps the body-soil bookkeeping equal to the amount resting on each layer, whatever cells collapse in whatever order.", "quantifier": "every state satisfying the soil conventions (heights need not be on the lattice), every repose height, every random stream", "why_tests_cant": "all states and schedules", "anchors": ["soil_simulator/relax.cpp: RelaxTerrain", "soil_simulator/relax.cpp: RelaxUnstableTerrainCell"]}
{"id": "C28", "title": "One avalanche makes the pair of columns stable and never overshoots", "statement": "After soil falls from a column to a free lower neighbour, their height difference is at most the repose height and at least the repose height minus one cell; heights stay on the lattice. If the repose height is zero the avalanche may swap the two heights, so that relaxation can go on forever.", "quantifier": "every pair of lattice heights and every lattice repose height", "why_tests_cant": "all heights", "anchors": ["soil_simulator/relax.cpp: RelaxUnstableTerrainCell"]}
{"id": "C29", "title": "Avalanches never bury a body wall", "statement": "If no terrain is above a body bottom before, terrain relaxation and body-soil relaxation never raise terrain above a body bottom, never raise body soil above an upper body layer and never put body soil on a column without body.", "quantifier": "every state satisfying the soil conventions with lattice heights, every random stream", "why_tests_cant": "all states and schedules", "anchors": ["soil_simulator/relax.cpp: RelaxTerrain", "soil_simulator/relax.cpp: RelaxBodySoil"]}
{"id": "C30", "title": "Body-soil avalanches conserve soil", "statement": "Relaxing the soil resting on the body conserves the total amount of soil and keeps the bookkeeping equal to the amount resting on each layer.", "quantifier": "every state satisfying the soil conventions with lattice heights, every random stream", "why_tests_cant": "all states and schedules", "anchors": ["soil_simulator/relax.cpp: RelaxBodySoil", "soil_simulator/relax.cpp: RelaxUnstableBodyCell"]}
{"id": "C31", "title": "Reported equilibrium is real", "statement": "If a step finishes with the equilibrium flag set, then every column in the active area passes the terrain stability test towards its four neighbours and every body-soil entry passes the body-soil stability test towards its four neighbours. (In rounded arithmetic, where the search for unstable columns and the stability test are different computations, every column passes one or the other.)", "quantifier": "every state, any arithmetic, every random stream", "why_tests_cant": "all states and schedules", "anchors": ["soil_simulator/soil_dynamics.cpp: SoilDynamics::Step", "soil_simulator/relax.cpp: RelaxTerrain", "soil_simulator/relax.cpp: RelaxBodySoil"]}
{"id": "C32", "title": "Relaxing a state in equilibrium changes nothing", "statement": "When terrain relaxation finishes with the equilibrium flag set, terrain, body soil and bookkeeping are exactly as before the call.", "quantifier": "every state, any arithmetic, every random stream", "why_tests_cant": "all states", "anchors": ["soil_simulator/relax.cpp: RelaxTerrain", "soil_simulator/relax.cpp: RelaxBodySoil"]}
{"id": "C33", "title": "Terrain relaxation is memory-safe and local", "statement": "With active areas as maintained by the simulator, terrain relaxation never accesses a column outside the grid and changes soil only in the active area and columns adjacent to it; the relaxation area left for the next round is unchanged if no examined column is unstable and otherwise the bounding rectangle of the unstable columns widened by the cell buffer on each side and cut at the limits of the grid.", "quantifier": "every state with in-range areas, any arithmetic, every random stream", "why_tests_cant": "all states", "anchors": ["soil_simulator/relax.cpp: RelaxTerrain"]}
{"id": "C34", "title": "The next active area contains every column that can have become unstable", "statement": "After terrain relaxation, every interior column that is unstable is either in the new relaxation area or was already unstable outside the examined area; instabilities are never lost by shrinking the area.", "quantifier": "every body-free state, every random stream, every buffer of at least two", "why_tests_cant": "all terrains and cascades", "anchors": ["soil_simulator/relax.cpp: RelaxTerrain"]}
{"id": "C35", "title": "Terrain relaxation converges", "statement": "On a body-free lattice terrain with repose height of at least one cell, repeated relaxation reaches equilibrium after finitely many rounds for every random stream.", "quantifier": "every terrain of any size and every infinite random stream", "why_tests_cant": "termination over unbounded executions", "anchors": ["soil_simulator/relax.cpp: RelaxTerrain", "soil_simulator/soil_dynamics.cpp: SoilDynamics::Step"]}
{"id": "C36", "title": "Every step re-establishes the soil conventions", "statement": "After every step that reports movement, the soil-convention check passes, provided the body stays off the grid border.", "quantifier": "every history of poses and every random stream", "why_tests_cant": "unbounded histories", "anchors": ["soil_simulator/soil_dynamics.cpp: SoilDynamics::Step", "soil_simulator/utils.cpp: CheckSoil"]}
{"id": "C37", "title": "Every history conserves the number of soil cells", "statement": "Over any sequence of steps the volume check with the initial number of soil cells passes as long as no removal warning was issued.", "quantifier": "every history of poses and every random stream", "why_tests_cant": "unbounded histories", "anchors": ["soil_simulator/soil_dynamics.cpp: SoilDynamics::Step", "soil_simulator/utils.cpp: CheckVolume"]}
{"id": "C38", "title": "The soil-convention check accepts exactly the documented conventions", "statement": "The check returns true exactly when every column of the active area satisfies all the documented conventions within the tolerance.", "quantifier": "every state, any arithmetic", "why_tests_cant": "all states", "anchors": ["soil_simulator/utils.cpp: CheckSoil"]}
{"id": "C39", "title": "The volume check is exactly bookkeeping consistency plus cell count", "statement": "The check returns true exactly when in every column the amount resting on each body layer equals the sum of the entries for that layer within the tolerance, and the total number of soil cells equals the given number.", "quantifier": "every state", "why_tests_cant": "all states, unbounded lists", "anchors": ["soil_simulator/utils.cpp: CheckVolume"]}
{"id": "C40", "title": "A step performs at most the configured number of relaxation rounds and then stops", "statement": "A step performs no more relaxation rounds than configured, stops early only in equilibrium, and with zero configured rounds never reports equilibrium.", "quantifier": "every state, parameter set and random stream", "why_tests_cant": "all iteration counts", "anchors": ["soil_simulator/soil_dynamics.cpp: SoilDynamics::Step"]}
{"id": "C41", "title": "Initial terrain is on the cell lattice and noise lookup stays in the table", "statement": "Initialising with any amplitude and any random stream gives every column a height that is a whole number of vertical cells, and the noise evaluation never reads outside its permutation table for coordinates in the supported range. In floating-point arithmetic with cells whose height is a power of two, the same holds and no height exceeds the amplitude rounded up to whole cells.", "quantifier": "every grid, amplitude and random stream", "why_tests_cant": "continuum and all random tables", "anchors": ["soil_simulator/soil_dynamics.cpp: SoilDynamics::Init", "soil_simulator/utils.cpp: simplex_noise"]}
{"id": "C42", "title": "Output files never overwrite a previous output while numbers remain", "statement": "Writing soil outputs picks the smallest unused five-digit number, so an existing terrain file is overwritten only if all 100000 numbers are used, and terrain and body-soil files of one call carry the same number.", "quantifier": "every set of existing files", "why_tests_cant": "all file-system contents", "anchors": ["soil_simulator/utils.cpp: WriteSoil", "soil_simulator/utils.cpp: WriteBody"]}
{"id": "C43", "title": "The whole terrain is at rest after every step of a history that settles", "statement": "Starting from any terrain on the height lattice with the whole grid scheduled for relaxation, moving the body through any sequence of poses that stay off the border, with a cell buffer of at least three: if every step reports equilibrium and puts no body soil on the terrain for want of a wall to carry it, then after every step that moves the body each terrain column of the grid, also those far from the body that the step did not look at, is at most the repose height above each of its four neighbours or is held up by the body; columns next to the lower borders are excepted.", "quantifier": "every grid, parameter set, body, terrain, random stream and history of any length", "why_tests_cant": "The relaxation looks only at a moving window of columns; that nothing is forgotten outside of it is an invariant over all histories.", "anchors": ["soil_simulator/soil_dynamics.cpp: SoilDynamics::Step", "soil_simulator/relax.cpp: RelaxTerrain", "soil_simulator/relax.cpp: LocateUnstableTerrainCell"]}
{"id": "C44", "title": "The rasterised body follows the posed shape", "statement": "After CalcBodyPos, for a body off the border: each point of each side of each face of the posed body (side starting in general position) is in the wall written to a column that the point touches; where the vertical line between four columns meets a face, the four columns hold a wall at that height; below and above each height of a written wall there is, over that column, a point of a face at most one vertical cell away (all sides in general position); all wall heights are at most two cells outside the range of the vertices; and the vertices used are those of the body up to three times the tolerance times its extent; without any condition on the position of the sides, every column and height written lies, in every direction, at most an explicit fixed number of cells outside the convex hull of the vertices.", "quantifier": "every grid, body, position and orientation keeping the body off the border", "why_tests_cant": "The set of poses is a continuum and the number of cells is unbounded.", "anchors": ["soil_simulator/body_pos.cpp: CalcBodyPos", "soil_simulator/body_pos.cpp: CalcRectanglePos", "soil_simulator/body_pos.cpp: CalcTrianglePos", "soil_simulator/body_pos.cpp: CalcLinePos"]}
{"id": "C45", "title": "An empty body moved above the ground leaves it alone", "statement": "If the body carries no soil, the terrain has no unstable column off the border, and the body is moved through any sequence of poses that stay off the border and at least two cells above the whole terrain, then the terrain is unchanged, no soil is picked up, the only possible warning is about a large movement, and every step that moves the body makes one relaxation pass and reports equilibrium.", "quantifier": "every grid, parameter set, body, terrain at rest, random stream and history of any length", "why_tests_cant": "Continuum of poses and terrains; any rasterisation error below the body would show up only for some of them.", "anchors": ["soil_simulator/soil_dynamics.cpp: SoilDynamics::Step", "soil_simulator/body_pos.cpp: CalcBodyPos", "soil_simulator/intersecting_cells.cpp: MoveIntersectingCells"]}
{"id": "C46", "title": "Soil leaves the gap between two body layers through openings only", "statement": "When body soil that reaches into the body layer above it is pushed out: every column that receives soil lies at the end of a straight corridor of columns with a gap between two body layers, in one of the eight lateral directions, and is not a wall that closes the last gap of that corridor; and soil is removed (with a warning) only from a column that is enclosed, meaning that in each of the eight lateral directions the corridor starting there ends at a wall closing its last gap, with the gaps of all columns of the corridor left full. A step that warns of a removal thus leaves a body with such an enclosed column.", "quantifier": "every grid, body, well-formed state and random stream; corridors of any length", "why_tests_cant": "The set of body shapes and soil distributions and the length of the corridors are unbounded.", "anchors": ["soil_simulator/intersecting_cells.cpp: MoveIntersectingBodySoil", "soil_simulator/intersecting_cells.cpp: MoveBodySoil"]}
{"id": "C47", "title": "Carried soil stays with the point of the body it rests on", "statement": "Each body-soil entry that holds soil carries coordinates in the frame of the body. After a step, such an entry either has the body-frame coordinates of an entry that held soil before the step, or the new pose carries its body-frame coordinates exactly to the centre of the top of the body layer and column it is recorded in. So for each entry after any history there is a moment of the history at which the pose of that moment carried its coordinates to the centre of the top of a body layer.", "quantifier": "every grid, body, parameter set, random stream, fuel and history of poses off the border, of any length", "why_tests_cant": "Entries are created and moved by avalanches and intersections in unboundedly many configurations; a wrong coordinate shows only in the next movement of the body.", "anchors": ["soil_simulator/body_soil.cpp: UpdateBodySoil", "soil_simulator/utils.cpp: CalcBodyFramePos", "soil_simulator/relax.cpp: RelaxTerrain", "soil_simulator/intersecting_cells.cpp: MoveIntersectingCells"]}
{"id": "C48", "title": "A body kept away from the sides of the grid never makes the simulator fail", "statement": "For constructor arguments that are accepted, any body and any sequence of poses that keep the reference point of the body away from the sides of the grid by more than an explicit distance computed from the body dimensions and the cell sizes: Init and all steps return (no out-of-range index, no uninitialised read, no endless loop), the final state does not depend on the iteration bounds used, CheckSoil returns true and CheckVolume returns true exactly when no soil-removal warning was issued. The same holds when each vertex of the posed body, in each pose, keeps a distance of more than three and a half horizontal plus four vertical cell sizes from the lateral sides of the grid and more than one vertical cell from its bottom and top, for a tolerance small compared to the cells.", "quantifier": "every accepted grid whose height is a multiple of the vertical cell, parameter set, body, initial terrain, random stream and history of any length", "why_tests_cant": "Absence of undefined behaviour and of endless loops over all poses and histories cannot be sampled.", "anchors": ["soil_simulator/soil_dynamics.cpp: SoilDynamics::Step", "soil_simulator/soil_dynamics.cpp: SoilDynamics::Init", "soil_simulator/types.cpp: Grid::Grid", "soil_simulator/relax.cpp: RelaxBodySoil", "soil_simulator/intersecting_cells.cpp: MoveIntersectingBodySoil"]}
{"id": "C49", "title": "Rounding does not lose soil when whole cells are representable", "statement": "When the vertical cell size is a power of two, the grid heights and the initial terrain are whole numbers of cells, the tolerance is visible (at least one unit of the last digit kept at the largest height, and less than half a cell by as much) and heights fit in the digits of the floating-point format: after any history of poses whose columns are inside the grid, computed in floating-point arithmetic (every operation rounded, any mathematical library), every stored terrain height and carried amount is exactly a whole number of cells, terrain is not below the bottom, CheckSoil returns true, and CheckVolume returns true for the initial volume reduced by exactly the amounts announced by the soil-removal warnings. This holds from the constructors on: Grid, SimParam, SimOut and Init called with floating-point arguments give such a start.", "quantifier": "every number of binary digits, power-of-two cell size, tolerance in range, terrain, random stream, body, mathematical library and history of any length; more generally every arithmetic that is exact on whole numbers of cells", "why_tests_cant": "Rounding errors accumulate over histories of any length; a test samples a few histories on one platform and cannot show that none of them drifts.", "anchors": ["soil_simulator/soil_dynamics.cpp: SoilDynamics::Step", "soil_simulator/relax.cpp: RelaxTerrain", "soil_simulator/relax.cpp: RelaxBodySoil", "soil_simulator/intersecting_cells.cpp: MoveIntersectingCells", "soil_simulator/body_soil.cpp: UpdateBodySoil", "soil_simulator/utils.cpp: CheckVolume", "soil_simulator/utils.cpp: CheckSoil"]}
{"id": "C50", "title": "Every avalanche moves the right amount to the right place", "statement": "When the stability test of two neighbouring columns asks for an avalanche, the relaxation call moves a whole number of cells, at least one, from the unstable surface to the surface designated by the code (terrain, or bare or covered body layer): the receiving surface was lower by more than the repose height; afterwards it exceeds the repose slope by at most one cell; the move stops only because the slope is now at most the repose height, because the space below the wall above is full, or because the whole entry of body soil has moved; no other surface changes. Only for body soil can nothing move, namely if the entry is empty or the designated space already full. RelaxTerrain is a sequence of such avalanches of terrain, RelaxBodySoil of soil on the body, and all rounds of a step a sequence of both, always between columns sharing a side.", "quantifier": "every well-formed state with two body layers, soil on them and arbitrary terrain, every pair of columns, every stability code, repose height, tolerance below half a cell and random stream; any number of rounds", "why_tests_cant": "There are eleven codes times the three ways a move can be cut short, for all heights; tests sample each branch on a few literals and cannot show that the amount is right for all of them.", "anchors": ["soil_simulator/relax.cpp: RelaxUnstableTerrainCell", "soil_simulator/relax.cpp: RelaxUnstableBodyCell", "soil_simulator/relax.cpp: CheckUnstableTerrainCell", "soil_simulator/relax.cpp: CheckUnstableBodyCell", "soil_simulator/relax.cpp: RelaxTerrain", "soil_simulator/relax.cpp: RelaxBodySoil"]}
{"id": "C51", "title": "Relaxation neither piles up nor digs", "statement": "After any number of rounds of relaxation no terrain and no body soil is higher than the highest terrain or body soil before, and no terrain is lower than the lowest terrain before.", "quantifier": "every well-formed state, body, parameters with a repose angle up to the vertical, tolerance below half a cell, random stream and number of rounds", "why_tests_cant": "Avalanches interact in an order that depends on the random stream and for an unbounded number of rounds.", "anchors": ["soil_simulator/relax.cpp: RelaxTerrain", "soil_simulator/relax.cpp: RelaxBodySoil", "soil_simulator/soil_dynamics.cpp: SoilDynamics::Step"]}
{"id": "C52", "title": "The body never makes the terrain deeper than it reaches", "statement": "Over any history of poses off the border, no terrain is ever lower than the lowest terrain at the beginning or two cells below the lowest vertex of the body in all poses, whichever is lower: neither the displacement of soil, nor the soil falling off the body, nor avalanches dig deeper.", "quantifier": "every accepted grid, body, parameter set, random stream, terrain on the cell lattice and history of any length", "why_tests_cant": "The bound has to survive unboundedly many interacting avalanches and displacements in random order over all histories.", "anchors": ["soil_simulator/soil_dynamics.cpp: SoilDynamics::Step", "soil_simulator/intersecting_cells.cpp: MoveIntersectingBody", "soil_simulator/intersecting_cells.cpp: MoveIntersectingBodySoil", "soil_simulator/body_soil.cpp: UpdateBodySoil", "soil_simulator/relax.cpp: RelaxTerrain", "soil_simulator/body_pos.cpp: CalcBodyPos"]}
{"id": "C53", "title": "The example's trajectory is the parabola it promises, and the bucket leads with its teeth", "statement": "CalcTrajectory(xi, zi, xmin, zmin, angle, nn) gives nn poses, equally spaced along X, on the parabola through (xi, zi) with its vertex at (xmin, zmin); it starts at (xi, zi), ends at the mirror image about xmin, with an odd number of poses passes through the vertex, and never leaves the heights between vertex and start. With the origin angle of the body, the orientation of each pose turns the floor of the bucket (from base to teeth) into the direction of the tangent of the parabola. A flat trajectory (zi = zmin, xmin not zero) consists of NaN heights.", "quantifier": "every start, vertex with a different abscissa, number of poses, body whose floor is in the XZ plane", "why_tests_cant": "The claim relates rotations, angles and a parabola for all real parameters; tests compare a few numbers with tolerances.", "anchors": ["test/example/soil_evolution.cpp: CalcTrajectory", "test/example/soil_evolution.cpp: SoilEvolution", "soil_simulator/utils.cpp: AngleToQuat", "soil_simulator/utils.cpp: CalcRotationQuaternion"]}
{"id": "C54", "title": "The example's schedule of time steps terminates, covers the trajectory and moves the body by about a cell per step", "statement": "The time loop of SoilEvolution ends, never reads outside of the trajectory, and yields times from 0.1 that increase by at least two sampling intervals and at most 0.2, reach at least 7.6 and stay below 8, followed by 8. The first pose is the start and the last pose the end of the trajectory; the pose of each time lies at the abscissa proportional to the time, up to a bounded error on the parabola and with the angle of its tangent. Apart from the jumps from the first to the second pose and to the last one, no vertex moves further than the smaller cell size between consecutive poses and some vertex moves at least half of it, so that every such step is carried out without the warning about large movements; the first jump takes 0.1 s whatever the cell size is and gives the warning.", "quantifier": "every body, grid and parabola whose speed is neither too slow nor too fast for the sampling of the trajectory and, for the movements, whose curvature is small on the scale of a cell (stated conditions, those for termination are met by every random trajectory of the shipped bucket, all of them by both shipped bodies on their default trajectories)", "why_tests_cant": "The number of iterations and the indices depend on computed velocities; only a bound of the velocity over the whole trajectory shows that the loop ends and no index leaves the vectors.", "anchors": ["test/example/soil_evolution.cpp: SoilEvolution", "test/example/soil_evolution.cpp: CalcTrajectory"]}
{"id": "C55", "title": "The example program runs to its end and its checks pass", "statement": "For all random numbers the shipped example (bucket, default trajectory) runs to its end: no index leaves an array and no loop runs forever. It makes at least 40 steps, simulating the poses of its schedule in order except the last one (the end of the trajectory). CheckSoil succeeds after every step. If no warning about removed soil was given, CheckVolume succeeds after every step; if CheckVolume succeeds after the last step, no soil was ever removed. The same holds for random trajectories of the bucket (unless the first number drawn is below 1/25, which starts the bucket next to the side of the grid), for random trajectories of the blade with the first number between 0.5 and 0.85, for the program with any body and parabola that satisfy stated conditions on speed and reach, and for the simulation loop with any grid, body and poses whose vertices stay a few cells away from the sides of the grid.", "quantifier": "every random stream (terrain and order of relaxation), every draw of a random trajectory in the stated ranges; for the loop also every accepted grid, parameters, body and list of poses", "why_tests_cant": "The terrain and the order of all avalanches are random and there are hundreds of interacting steps; a run shows one of them.", "anchors": ["test/example/main.cpp: main", "test/example/soil_evolution.cpp: SoilEvolution", "soil_simulator/soil_dynamics.cpp: SoilDynamics::Step", "soil_simulator/soil_dynamics.cpp: SoilDynamics::Check", "soil_simulator/soil_dynamics.cpp: SoilDynamics::Init"]}
{"id": "C56", "title": "A pose that puts a vertex of the body outside the grid is never simulated", "statement": "A step that moves the body reads and writes only cells of the grid only if the cell of every vertex of the drawn faces is in the grid; so a step can return normally only if every vertex of the body (with the back face of a blade) is inside the box of the grid, up to the displacement of the vertices by a multiple of the tolerance. A history with a pose that puts a vertex of the body farther out than half the smaller cell size never runs to its end, whatever the other poses are: the library has no check or exception for it; if the run gets to this pose, the cell of the vertex is not in the arrays. The shipped example with the blade and a random trajectory is such a history for a whole range of its random numbers.", "quantifier": "every grid, body, pose, history, random stream, tolerance up to one third; the cell condition for any arithmetic; for the example all draws with the first at most 1/20 and the third at most 1/10", "why_tests_cant": "A test of undefined behaviour shows nothing reliable, and no finite set of poses covers all positions, orientations and earlier histories (a step that does not move the body far enough is skipped, so the pose need not be drawn).", "anchors": ["soil_simulator/soil_dynamics.cpp: SoilDynamics::Step", "soil_simulator/body_pos.cpp: CalcBodyPos", "soil_simulator/body_pos.cpp: UpdateBody", "soil_simulator/body_pos.cpp: CalcLinePos", "test/example/soil_evolution.cpp: SoilEvolution"]}
{"id": "C57", "title": "Soil moves only near the body and near slopes that are already unstable", "statement": "Take a rectangle of columns over which the body stays in all poses of a history (its vertices at least a few cells inside). If the initial terrain is at rest outside the rectangle (up to two columns), then after n steps with at most m relaxation passes each, every column farther than 1 + 2*n*m columns from the rectangle has exactly the terrain it started with, and the terrain is at rest beyond 2 + 2*n*m columns: soil pushed by the body, falling off it or sliding does not appear in any far column, whatever the random order of relaxation is. In one step, in any arithmetic (rounding included), terrain changes at most r - 1 + 2*k columns away from the columns of the body and of its soil, where r bounds the distance of the unstable columns before the step and k is the number of passes made.", "quantifier": "every grid, parameters, body, rectangle, initial terrain, history of poses (any length) and random stream; the one-step bound for any arithmetic", "why_tests_cant": "A test compares the terrain of a few short scenarios; that no order of relaxation, no chain of columns filled in turn and no pose can carry soil to a far column in any number of steps is a statement over all of them.", "anchors": ["soil_simulator/soil_dynamics.cpp: SoilDynamics::Step", "soil_simulator/relax.cpp: RelaxTerrain", "soil_simulator/relax.cpp: LocateUnstableTerrainCell", "soil_simulator/intersecting_cells.cpp: MoveIntersectingBody", "soil_simulator/intersecting_cells.cpp: MoveIntersectingBodySoil", "soil_simulator/body_soil.cpp: UpdateBodySoil"]}
{"id": "C58", "title": "Soil carried by the body is never left behind", "statement": "After any history, when the body moves to a further pose, every entry of soil it carries (UpdateBodySoil) is put on top of a body layer in one of the nine columns around the moved position of the entry, with its body-frame coordinates and amount unchanged; the terrain is not touched and no warning is issued. Hence the fallback that moves soil to the terrain, with the warning 'Body soil could not be updated', never happens, in whatever direction and however far the body moves or turns in one step, as long as it stays clear of the sides of the grid. It holds from the constructors for grids whose extents are multiples of the cell sizes, cells at most half as high as wide and lower than about a metre (compare C70), a small tolerance, and poses whose edges do not start exactly on cell boundaries.", "quantifier": "every grid (multiple of its cells), parameters, body, initial terrain, history of poses of any length clear of the sides and in general position, and random stream", "why_tests_cant": "The source says of the fallback 'This should normally not happen, it is only for safety'; a test cannot reach a case that does not exist. That the columns of the drawn body always surround the moved position of every entry, for all poses and all rotations, is a statement about how the faces are rasterised in every pose.", "anchors": ["soil_simulator/body_soil.cpp: UpdateBodySoil", "soil_simulator/body_pos.cpp: CalcBodyPos", "soil_simulator/body_pos.cpp: CalcLinePos", "soil_simulator/body_pos.cpp: CalcRectanglePos", "soil_simulator/body_pos.cpp: CalcTrianglePos", "soil_simulator/intersecting_cells.cpp: MoveIntersectingBodySoil", "soil_simulator/relax.cpp: RelaxBodySoil"]}
{"id": "C59", "title": "The initial terrain is far smaller than its amplitude, smooth, and at rest", "statement": "Init(amp_noise) documents its argument as the amplitude of the noise in metres. For every random stream, no column is higher or lower than 80/2187 (less than four percent) of the amplitude plus half a cell; an amplitude of thirteen cells or less gives an exactly flat terrain; the first column of the grid has height zero whatever the stream; neighbouring columns differ by at most 3/5 of the amplitude times the width of a column over the half-width of the grid, plus one cell of rounding, so the noise is continuous across the triangles it is built from; hence the terrain is at rest (no column can slide) if that slope is below the repose step, and C57 holds from the constructors and Init.", "quantifier": "every grid the constructor accepts, every amplitude, every random stream (hence every permutation table)", "why_tests_cant": "A test samples a few tables and points; the bounds are over all tables, all columns of all grids, and continuity across triangles is a statement about a continuum of points.", "anchors": ["soil_simulator/soil_dynamics.cpp: SoilDynamics::Init", "soil_simulator/soil_dynamics.hpp: Init (amp_noise)", "soil_simulator/utils.cpp: simplex_noise"]}
{"id": "C60", "title": "A run that writes its outputs leaves one complete frame per step, in order, and loses none", "statement": "Running the simulation loop with output writing makes exactly the steps of a run without it, and returns whenever that does. If the directory holds terrain files with the numbers below n and body files with the numbers below m, then after the run the state after step i (counted from 0) is in the terrain and body-soil files of number n + i and the body in its pose after step i in the body file of number m + i, as long as the numbers stay below 100000; every other file is unchanged. A terrain file has one row per column, in order, with its position and height; a body-soil file one row per layer holding soil; sorting by name is sorting by number. With all 100000 numbers in use each further call replaces the last frame without notice. The shipped bucket example with output writing leaves between 40 and 5000 frames.", "quantifier": "every directory content, history of poses, state, body and random stream; any arithmetic (the example on the reals)", "why_tests_cant": "A test writes one or two files into a known directory; that no frame of this or an earlier run is overwritten for any length of run and any directory, and that names sort by time, is a statement over all of them.", "anchors": ["soil_simulator/soil_dynamics.cpp: SoilDynamics::WriteOutputs", "soil_simulator/utils.cpp: WriteSoil", "soil_simulator/utils.cpp: WriteBody", "test/example/soil_evolution.cpp: SoilEvolution"]}
{"id": "C61", "title": "Soil gets onto the body only by avalanches of terrain", "statement": "Moving the soil along with the body, pushing soil on the body out of the body and relaxing the soil on the body take nothing from the terrain of any column; pushing terrain out of the body leaves the soil on the body as it is; avalanches of terrain take nothing from any layer of the body. If the body carries more soil after a step than before, the pose was accepted, at least one round of relaxation is allowed, and during the relaxation soil slid from the terrain of some column onto a body layer of a column sharing a side with it, lower by more than the repose height. With max_iterations = 0 a history that starts without soil on the body never puts any on it, whatever the body does.", "quantifier": "every sound state, pose inside the grid, body, repose angle, tolerance below half a cell and random stream; every length of history", "why_tests_cant": "The documentation promises that all soil on the body comes from one case of the terrain relaxation; excluding every other way, over all states and all branches of transport, intersection and relaxation, is a universal statement.", "anchors": ["soil_simulator/relax.cpp: RelaxTerrain", "soil_simulator/relax.cpp: RelaxUnstableTerrainCell", "soil_simulator/relax.cpp: RelaxBodySoil", "soil_simulator/intersecting_cells.cpp: MoveIntersectingBodySoil", "soil_simulator/intersecting_cells.cpp: MoveIntersectingBody", "soil_simulator/body_soil.cpp: UpdateBodySoil", "docs/relax.rst"]}
{"id": "C62", "title": "Relaxation and squeezing treat the two horizontal axes alike", "statement": "Take any scene and exchange its two horizontal axes: the grid, the state and the pose of the body (the mirror image of its orientation). Every result that the terrain relaxation, the relaxation of soil on the body, the pushing of soil squeezed by the body, or the whole sequence of relaxation passes of a step can give on the scene is, with exchanged axes, a result they can give on the exchanged scene: the same heights in the exchanged columns, the same entries of soil on the body with exchanged positions in the same order, the same flag, the same rectangles, the same warnings, and for the relaxation of a step the same number of passes.", "quantifier": "every grid, body, state (sound or not), parameters, repose angle, random stream, fuel and number of passes; any linearly ordered field with floor", "why_tests_cant": "Random choices and the order of shuffled cells make the two runs differ for equal seeds; the statement is about the sets of possible results on all scenes.", "anchors": ["soil_simulator/relax.cpp: RelaxTerrain", "soil_simulator/relax.cpp: RelaxBodySoil", "soil_simulator/relax.cpp: LocateUnstableTerrainCell", "soil_simulator/intersecting_cells.cpp: MoveIntersectingBodySoil", "soil_simulator/soil_dynamics.cpp: SoilDynamics::step", "soil_simulator/body_soil.cpp: CalcBodyFramePos"]}
{"id": "C63", "title": "The place in the grid and the size of the grid do not matter", "statement": "Take two grids with cells of the same size and the same height, of any horizontal sizes that are multiples of the cell, and the same terrain in columns that correspond to each other by a shift, with no unstable column outside a rectangle under the motion and two columns around it. Run any sequence of poses of a body over that rectangle on the first grid, and the poses moved along on the second, with the same random numbers. If in both grids the rectangle is at least 2 * steps * max_iterations + 1 + cell_buffer columns away from where areas are cut off at the sides, both runs end, and the second shows the result of the first in the corresponding columns: same terrain, same body, same soil on the body, same entries of soil in the same order with the same positions in the frame of the body, same equilibrium flag, same warnings, same random numbers drawn, and the body moved along. In particular the same motion in metres in the middle of a larger grid gives the same result.", "quantifier": "every pair of such grids, every shift, body, parameters, small tolerance, terrain, random stream and sequence of poses of any length; exact real arithmetic (one step from corresponding states: any linearly ordered field with floor)", "why_tests_cant": "A test compares a few runs on a few grids; a dependence on absolute indices, on the half lengths of the grid or on the areas kept from the constructor shows only for particular places and sizes.", "anchors": ["soil_simulator/soil_dynamics.cpp: SoilDynamics::step", "soil_simulator/body_pos.cpp: CalcBodyPos", "soil_simulator/body_pos.cpp: CalcLinePos", "soil_simulator/body_soil.cpp: UpdateBodySoil", "soil_simulator/relax.cpp: RelaxTerrain", "soil_simulator/intersecting_cells.cpp: MoveIntersectingCells", "soil_simulator/types.cpp: Grid::Grid", "soil_simulator/types.cpp: SimOut::SimOut"]}
{"id": "C64", "title": "Placing the body works in floating-point arithmetic", "statement": "Compute CalcBodyPos with every operation rounded to a fixed number of binary digits and a square root with a small relative error. If the grid is small compared to the precision (in single precision up to about 1400 columns or heights), at least three cells are added around the body, and the vertices of the body as computed are at least two cells away from the edges of the grid and not higher or lower than about a third of its half height, then rounding does no harm: the traversals of the edges end, no conversion to int is out of range, no array is accessed out of bounds, and the call returns normally from every state whose body area is inside the grid. The new body area is off the border and contains all columns written; terrain, soil on the body and the other areas are unchanged; the columns of the old body area are emptied. So after any number of placements nothing of the body is outside the current body area.", "quantifier": "every number of binary digits, every accurate square root, grid, cell sizes, body (bucket or blade), tolerance, state, and any number of poses", "why_tests_cant": "A rounding error that makes the traversal miss its end point, run past the buffer or leave the grid shows for rare combinations of pose and cell size only.", "anchors": ["soil_simulator/body_pos.cpp: CalcBodyPos", "soil_simulator/body_pos.cpp: CalcLinePos", "soil_simulator/body_pos.cpp: CalcRectanglePos", "soil_simulator/body_pos.cpp: CalcTrianglePos", "soil_simulator/body_pos.cpp: DecomposeVectorRectangle", "soil_simulator/body_pos.cpp: UpdateBody", "soil_simulator/utils.cpp: CalcNormal"]}
{"id": "C65", "title": "A whole simulation works in floating-point arithmetic", "statement": "Compute whole simulations with every operation rounded to a fixed number of binary digits and a square root with a small relative error, where the height of a cell is a power of two and terrain starts at whole numbers of cells. If every pose satisfies the conditions of C64, and around every position there is room inside the grid, two cells from the edges, for a disc whose radius is the greatest distance of a cell of the body from its position (enlarged by the rounding error), then the run of any sequence of such poses returns normally: every loop ends, no conversion to int is out of range, no array is accessed out of bounds and no uninitialised value is read. Soil carried by the body is never moved out of the grid by a rotation. After it CheckSoil returns true, and CheckVolume returns true for the initial number of soil cells minus the cells announced by the removal warnings. In particular this holds for whole programs: when the grid and the parameters are made by their constructors and the terrain by Init from any seed, in the same arithmetic, and the grid is not too large for the precision, Init and the run return normally and both checks pass.", "quantifier": "every number of binary digits, every accurate square root, grid, body (bucket or blade), tolerance, terrain of whole cells, random stream and sequence of poses of any length; also every other arithmetic that is exact on whole numbers of cells, with the conditions on the columns found instead of the vertices", "why_tests_cant": "A test runs a few trajectories; a rounding error in the rotation that carries soil from one pose to the next, or a loop that does not end because of rounding, shows after particular combinations of poses only.", "anchors": ["soil_simulator/soil_dynamics.cpp: SoilDynamics::step", "soil_simulator/body_pos.cpp: CalcBodyPos", "soil_simulator/body_soil.cpp: UpdateBodySoil", "soil_simulator/utils.cpp: CalcRotationQuaternion", "soil_simulator/utils.cpp: CalcBodyFramePos", "soil_simulator/intersecting_cells.cpp: MoveIntersectingCells", "soil_simulator/relax.cpp: RelaxTerrain", "soil_simulator/relax.cpp: RelaxBodySoil", "soil_simulator/utils.cpp: CheckVolume"]}
{"id": "C66", "title": "In floating-point arithmetic the body is drawn at its pose", "statement": "In the setting of C65 (every operation rounded), after any run that returns, either no step did anything and body and state are unchanged, or the pose of the body is one of the given poses and the body layers show the body at this pose: at each vertex of the body, as computed from the pose, there is a column whose centre is within 9/16 of a cell of the vertex in x and in y and which has a body layer that contains the height of the vertex up to a sixteenth of a cell; and every column with a body layer is within two and a half columns of the rectangle around the vertices. Nothing of earlier poses is left. In any arithmetic that is exact on whole numbers of cells, the body layers are exactly those of the cells found for the pose: each cell is contained in one layer of its column, no layer reaches below or above all cells of its column, and a column without cells has no layer.", "quantifier": "every number of binary digits, every accurate square root, grid, body (bucket or blade), tolerance, terrain of whole cells, seed, and sequence of poses of any length with room for the body", "why_tests_cant": "The unit tests compare the cells of a few hand-picked poses; whether rounding can displace a wall, lose a corner or leave a remainder of an earlier pose depends on the pose and on everything that happened before.", "anchors": ["soil_simulator/body_pos.cpp: CalcBodyPos", "soil_simulator/body_pos.cpp: CalcLinePos", "soil_simulator/body_pos.cpp: UpdateBody", "soil_simulator/body_pos.cpp: IncludeNewBodyPos", "soil_simulator/soil_dynamics.cpp: SoilDynamics::step"]}
{"id": "C67", "title": "Rounding displaces carried soil by a few units in the last place, and the errors do not add up", "statement": "In floating-point arithmetic with relative rounding error u <= 1/500, a vector rotated by CalcRotationQuaternion is within 29 u times its length of the exactly rotated vector, for every orientation other than zero, normalised or not. A point of the grid at a distance of at most r from the body, stored by CalcBodyFramePos at one pose and computed back by UpdateBodySoil for another pose, has coordinates that differ from those of the exact place by at most u (63 r + |coordinate|). So when the grid and the body are small compared to the precision, the column computed is within 5/8 of a cell of the exact place; it is the right one whenever the exact place is within 3/8 of a cell of its centre; and at the pose at which it was stored, soil is in the column where it was, at its height up to the same error. After UpdateBodySoil every record of soil on the body comes from a record before with the same coordinates in the frame of the body, and its column is within 13/8 of a cell (one for the search for a wall, 5/8 for the column) of the exact place, where exact means computed from the pose at which the soil was stored, however many movements ago.", "quantifier": "every number of binary digits (u <= 1/500), orientation, vector, pair of poses, grid, body, state and list of records", "why_tests_cant": "Tests rotate a few vectors by a few normalised quaternions and compare with a tolerance; a bound for all orientations and scales, and the absence of drift over any number of movements, are statements about all inputs.", "anchors": ["soil_simulator/utils.cpp: CalcRotationQuaternion", "soil_simulator/utils.cpp: MultiplyQuaternion", "soil_simulator/utils.cpp: CalcBodyFramePos", "soil_simulator/body_soil.cpp: UpdateBodySoil"]}
{"id": "C68", "title": "Soil on a moving body looks for its place in the direction of the movement", "statement": "When UpdateBodySoil moves the soil on the body and several of the nine columns around the new place of a soil entry have a body layer less than a cell (plus the tolerance) from its height, the choice follows the movement of this point of the body, by translation and rotation together: its own column first; then the column straight ahead along the axis of the larger displacement; a column behind along this axis only if no column that is not behind is suitable; and a column against the other component of the displacement only if the one on the other side is not suitable. In particular soil between two walls goes to the wall ahead, whichever way the body moves.", "quantifier": "every state (sound or not), grid, body, tolerance, pair of poses and list of records for which the transport returns; any linearly ordered field with floor", "why_tests_cant": "The tests check a few constellations of walls; a wrong entry in one of the two lists of nine directions, or a displacement without the rotation, matters only where several walls compete.", "anchors": ["soil_simulator/body_soil.cpp: UpdateBodySoil"]}
{"id": "C69", "title": "The back of the blade is one column behind its ankle", "statement": "For a blade whose joint, base and teeth are not on one line and whose width is positive, in every pose: the six vertices of the back are the six of the front moved by one vector, which is one cell_size_xy long (not two, as the documentation says), at right angles to the ankle (the rectangle of joint and base), and points to the side of the ankle away from the teeth, so the back is never drawn in front. The back moves rigidly with the body: its vertices are the images under the pose of six points that depend only on the body and the cell size. The heel is thinner: its front and back are a column times the cosine of the angle between ankle and heel apart, and a heel at right angles to the ankle has no thickness.", "quantifier": "every blade with non-collinear reference points and positive width, grid, position and orientation (any non-zero quaternion); exact real arithmetic", "why_tests_cant": "The tests place one blade in a few poses; that the back is behind the blade for every shape and orientation depends on the order of three points in a cross product.", "anchors": ["soil_simulator/body_pos.cpp: CalcBodyPos (Blade)", "soil_simulator/utils.cpp: CalcNormal", "soil_simulator/utils.cpp: CalcBodyCornerPos"]}
{"id": "C70", "title": "Exactly which soil is left behind when the body moves", "statement": "After UpdateBodySoil the terrain of each column is the terrain before plus the amounts, in whole cells, of exactly those soil records (of at least nine tenths of a cell) whose new position is in this column and for which every body layer in the nine columns around it is at least a cell (plus the tolerance) and at least 2*half_length_z metres away in height; one warning is issued for each of these records and for no other, and all other such records are on the body afterwards. The second distance is a number of cells compared with metres: if the grid has at most as many cells in height as a cell is metres high, soil is put on the terrain although a layer is two cells away in its own column; if a cell is lower than a metre, soil within the height of the grid is lost only if none of the nine columns has a layer.", "quantifier": "every state (sound or not), grid, body, tolerance, pair of poses and list of records for which the transport returns; any linearly ordered field with floor", "why_tests_cant": "The tests check one constellation for the fallback; the exact condition depends on all layers of nine columns, and the mix of units shows only for large cells.", "anchors": ["soil_simulator/body_soil.cpp: UpdateBodySoil"]}
{"id": "C71", "title": "The corners of the body are right up to rounding", "statement": "In rounded arithmetic (relative error u, e.g. single precision), for a body whose three reference points are at most r from its origin and not nearly on a line (the area of their triangle is at least 500 u r^2), in every pose: the middle of the two corners CalcBodyCornerPos makes from a reference point is the exactly posed reference point, each coordinate up to u (64 r + 3 |coordinate| + width); and the distance of the two corners is the width of the body up to u (r + 5 L + 10 width), where L bounds the coordinates. If the exact normal N (the cross product of the two edges) is at least k >= 2004 u r^2 long, the vector from the left to the right corner is a positive multiple of N up to an error of length u (r + 5 L + 3 width) + 2100 u r^2 width / k, so right is never taken for left and the width is at right angles to the plane of the reference points up to this error. The orientation need not be normalised.", "quantifier": "every body with a proper triangle and positive width, position, non-zero orientation, and binary precision with u at most 1/500", "why_tests_cant": "The tests compare a few poses with a tolerance; how far the error can grow for an arbitrary shape and pose, and that a proper triangle never gives a zero normal (a division by zero), needs an error analysis.", "anchors": ["soil_simulator/utils.cpp: CalcBodyCornerPos", "soil_simulator/utils.cpp: CalcNormal", "soil_simulator/utils.cpp: CalcRotationQuaternion"]}
{"id": "C72", "title": "In floating-point arithmetic the simulated body is never more than half a cell behind", "statement": "In rounded arithmetic (relative error u), for a body whose reference points are at most r from its origin and not nearly on a line, with coordinates up to L: CheckBodyMovement reports a movement whenever one of the three reference points, posed exactly, moves by more than half the smaller cell size times (1 + 6u) plus 4u (64 r + 3 L + width), however the body turns, with the warning of a large movement if it is more than two of the smaller cells times (1 + 6u) plus the same error; and it reports none, and no warning, for a shift without rotation by at most half the smaller cell size times (1 - 6u) minus u (6 r + 9 L + 3 width). Therefore, after any sequence of Step calls, the pose at which the body is simulated has every reference point within the first distance of where the last requested pose has it: requests that are ignored do not add up, even if each is much smaller than a cell.", "quantifier": "every grid, body with a proper triangle and positive width, history of poses of any length with non-zero orientations, state, and binary precision with u at most 1/500", "why_tests_cant": "The tests check single movements well above or below the threshold; that rounding cannot hide a movement, and that the lag stays bounded over histories of any length, needs an error analysis and an induction.", "anchors": ["soil_simulator/utils.cpp: CheckBodyMovement", "soil_simulator/utils.cpp: CalcBodyCornerPos", "soil_simulator/soil_dynamics.cpp: Step"]}
