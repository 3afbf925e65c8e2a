# Design of the formal model of `soil_dynamics_cpp`

## 1. Layout

* `lean/Verif/Model/` – the model, one file per C++ file. Every definition cites the lines of `/repo` it models.
  `Num` (number operations), `Types` (types.cpp), `Utils` (utils.cpp), `BodyPos` (body_pos.cpp),
  `BodySoilUpd` (body_soil.cpp), `Intersect` (intersecting_cells.cpp), `Relax` (relax.cpp),
  `SoilDynamics` (soil_dynamics.cpp), `Output` (file output of utils.cpp), `Example` (the example program,
  test/example), `Session` (runs that write outputs into a directory), `Real` (functions on ℝ).
* `lean/Verif/Spec/` – small specifications used in theorem statements. They do not call the model's helper functions.
* `lean/Verif/Proof/` – lemmas.
* `lean/Verif/Props/` – the property theorems, each followed by an `example` showing that its hypotheses are met by a
  concrete non-trivial case.
* `MANIFEST.json` maps properties to theorems; `seeded/LOG.jsonl` records the mutation experiments.

## 2. Trusted base

* Lean 4.33.0's kernel and the axioms `propext`, `Classical.choice`, `Quot.sound` (no own axioms, no `sorry`,
  no `native_decide`, no `bv_decide`).
* That the definitions in `Verif/Model` say the same as the C++ code. This is by reading only: the code was neither
  built nor run.

## 3. Modelling decisions

* **Numbers.** Every function is written once against the class `FOps`, which lists the number operations that the code
  uses and assumes *no laws*. A theorem stated for an arbitrary `[FOps F]` ("any arithmetic") holds for IEEE-754
  including rounding and NaN. Theorems needing arithmetic are stated for exact arithmetic: `FOps.exact`, over any
  linearly ordered field with floor (e.g. ℚ, ℝ), real functions on ℝ. Facts about 0/0 use `NaNable K`, exact numbers
  plus a NaN. So rounding errors of `float` and `int` overflow are **not** modelled in the exact-arithmetic theorems.
  All numbers of the model have one type. The code stores `float` and evaluates some expressions in `double` (literals
  such as `0.5` and functions such as `round` promote), narrowing the result on assignment. This mixing is a
  simplification in every theorem, including those for any arithmetic.
* **Rounded arithmetic** (C49, C64–C67). `Flt R` is the rational numbers with every operation followed by the rounding function `R.rnd`, and an
  arbitrary mathematical library. `roundBinary prec` is rounding to nearest even with `prec` binary digits (24 for `float`, 53
  for `double`); it has no overflow, underflow, infinities, NaN or signed zero. The C49 theorems rest on `CellArith`, a
  list of the facts about whole numbers of cells that the soil functions need; nothing is assumed about rasterisation and
  rotation in that arithmetic except that the columns found are inside the grid (`PoseFits`, which C44 proves
  in exact arithmetic, and C64 in rounded arithmetic for vertices two cells from the edges, a buffer of three cells and an
  accurate square root). The bound on heights is crude: the total volume of soil must fit in the digits. With `float`, cells of 1/8
  and a tolerance of 1/32 it admits 100 x 100 columns of 13 cells above the bottom; with a tolerance of 1e-5 only toy
  volumes, because the tolerance must remain visible when added to the largest height. Cell sizes such as 0.1 are not
  representable and not covered.
* **Lattice.** The code keeps heights at multiples of `cell_size_z` and compares with a tolerance. Exact-arithmetic
  theorems about soil heights assume heights are multiples of the cell height (`Al`) and `0 < tol`, `2*tol < cell`. Where
  the property does not need it (C27) it is not assumed.
* **Arrays** are functions of the indices together with their sizes; each access that the C++ code makes is guarded, and an
  out-of-range access is the outcome `Err.oob`. Other undefined behaviour: `badCast` (float to int of NaN), `uninit`.
  "Safe" means the outcome is none of these.
* **Unbounded loops** take a fuel argument and yield `Err.fuel` when it is exhausted; termination is "for every
  sufficiently large fuel the result is the same and not `Err.fuel`".
* **Randomness.** The generator is an arbitrary stream of naturals; each `dist(rng)` consumes one and reduces it to the
  range. Theorems quantify over all streams.
* **Warnings** are a log in the state. `soilRemoved h` carries the removed amount as ghost data. Warning texts and the
  warnings of the two check functions are not modelled (they accompany exactly the result `false`).
* **Aliased code.** C++ branches that are identical up to the body layer are one definition with a layer parameter; the
  comment cites all copies. Short-circuit evaluation is ignored when it only decides whether a read takes place in
  `LocateUnstableTerrainCell` (the model requires all five reads in range).
* **Not modelled:** logging texts, formatting and I/O errors of the output files, `std::source_location`, the unit
  tests, benchmarks and visualisation scripts, the build files. Of the example program (`Model/Example`) the command line, the output
  files and the generator behind random trajectories are left out; `std::pow(x, 2)` is `x*x`. Vectors of wrong length are modelled in the `Body` constructor only.

## 4. Properties: what is modelled and how it is proved

| Id | Model used | Method |
|----|-----------|--------|
| C01 | `mkGrid` | case analysis of the guards; induction on the accumulation loop |
| C02 | `mkBody`, `mkSimParam` | case analysis |
| C03 | `mkSimOut`, `checkSoil`, `checkVolume` | evaluation for arbitrary sizes, induction on the cell loops |
| C04 | `multiplyQuaternion` | polynomial identities; equality with Mathlib's `Quaternion` product |
| C05 | `calcRotationQuaternion` | field identities with `‖q‖² ≠ 0` |
| C06 | `calcBodyFramePos`, rotation, index rounding, `updateBodySoil` | inverse rotation identity; rounding bound; the search for a layer starts in the column of the moved position, so that soil under an unchanged pose returns to its column |
| C07 | `angleToQuat` on ℝ | half-angle identities |
| C08 | `calcNormal` on ℝ | field identities; `√` of a positive number |
| C09 | `calcBodyCornerPos` on ℝ | from C05 and C08 |
| C10 | `checkBodyMovement` on ℝ | unfolding of the maximum; C05 for translations |
| C11 | `checkBodyMovement` over `NaNable` | NaN propagation |
| C12 | `step`, any arithmetic | unfolding |
| C13 | `shuffle` | induction over the swaps; reachability by constructing the draws |
| C14 | `includeNewBodyPos` | case analysis over layer order, linear arithmetic |
| C15 | `updateBody` | induction over the sorted list, using C14 |
| C16 | `calcLinePos` on ℝ | loop invariant relating `t_max` to grid planes crossed; measure for termination |
| C17 | `decompose*`, `innerCells` | Cramer's rule; counting |
| C18 | `calcBodyPos` | frame lemma for `updateBody`, clamping |
| C19 | relax/intersect/body-soil functions, any arithmetic | frame lemmas by induction over each loop |
| C20 | `updateBodySoil` | volume change of `placeOn`; induction over entries |
| C21 | `locateIntersectingCells`, any arithmetic | membership in the list of cells |
| C22 | `moveIntersectingBody` | conservation per ring step; induction over cells |
| C23 | `moveIntersectingBodySoil` | invariant preserved by deposit/withdraw operations; potential "excess ≤ entries not yet processed" |
| C24 | both outward searches | distance to border as a measure |
| C25 | `locateUnstableTerrainCell`, any arithmetic | membership; bounds from the area invariant |
| C26 | `checkUnstable*Cell` | case analysis against an independent specification of the codes |
| C27 | `relaxTerrain` | each avalanche is a transfer of equal amounts; sums over the grid |
| C28 | `relaxUnstableTerrainCell` code 40 | lattice floor identity |
| C29 | relax functions | column invariant preserved by every branch |
| C30 | `relaxBodySoil` | as C27 with lattice hypotheses |
| C31 | `relaxLoop`; `C31_any`: any arithmetic | the flag is cleared by any non-zero status; induction over loops |
| C32 | `relaxTerrain`, `relaxBodySoil`, any arithmetic | as C31 |
| C33 | `relaxTerrain`, any arithmetic | bounds and frame induction; the new area by folding minima and maxima (`C33_window`) |
| C34 | `relaxAreaOf` | bounding box contains the changed columns and their neighbours |
| C35 | `relaxTerrain` iterated, no body | potential Σ h² strictly decreases by ≥ c² per avalanche when the repose height ≥ one cell |
| C36 | `step` | composition of C14–C30 invariants |
| C37 | `run` | composition of C20, C22, C23, C27, C30 |
| C38 | `checkSoil` | against an independent list of conventions |
| C39 | `checkVolume` | sum over entries; counting |
| C40 | `relaxLoop`, `step` | induction |
| C41 | `init`, `simplexNoise` on ℝ and in `Flt` | lattice by construction; bounds of the skewed coordinates; in rounded arithmetic: rounding goes to the nearest number (`Proof/InitFlt`), so positions drift by at most one cell size per column, and the bounds of the noise are kept by monotone rounding |
| C42 | `writeSoil`, `writeBody` | least unused number; rows against an independent list of the columns, layers and faces, each once and in order |
| C43 | `run` | invariant "every unstable column is in the relaxation area", C34 and C31 |
| C44 | `calcBodyPos` on ℝ | C16 and C17 per face, C15 per column; perturbation bound for the nudged vertices; `C44_hull`: every wall cell is near a point of a face, so no direction sees it far beyond the vertices (`Proof/Near`, `Proof/Margin`) |
| C45 | `run` | heights of the body from C44 above the terrain, C32 |
| C46 | `moveIntersectingBodySoil` | loop invariant of the outward search: the path so far is a corridor of full gaps |
| C47 | `step`, `run`; records: any arithmetic | every operation keeps or rewrites the body-frame coordinates; C06 |
| C48 | `init`, `run` on ℝ | safety of each phase from index bounds, termination by the measures of C16, C24, fuel monotonicity; `C48_margin`: soil carried by the body stays near the convex hull of its vertices (support functions in every direction are preserved by the motion) |
| C49 | `run`, `checkSoil`, `checkVolume`; any arithmetic exact on whole cells, `Flt` | simulation: each function run in the given arithmetic and in exact arithmetic with cells of height one yields related states (`Proof/Sim*`); rounding is monotone and fixes short numbers; `C49_constructed` starts from `mkGrid`, `mkSimParam`, `mkSimOut` and `init` |
| C50 | `relaxUnstableTerrainCell`, `relaxUnstableBodyCell`, `relaxTerrain`, `relaxBodySoil`, `relaxLoop` | each branch is one elementary move with its bounds (`Fall`); induction over directions, columns, entries and rounds |
| C51 | `relaxLoop` | induction over the sequence of avalanches of C50 |
| C52 | `step`, `run` | soil coming off the body only raises terrain; terrain is pushed down to a layer bottom at most (C22), whose height is bounded by C44; C51 |
| C53 | `calcTrajectory` on ℝ | field identities for the parabola; half-angle identities of C07; NaN propagation for the flat case |
| C54 | `evolution` on ℝ | Lipschitz bounds of arctan and rotations give bounds of the speed of the corners; induction over the time loop with a measure; interpolation error of the parabola; second differences of the corners (`Proof/Bends`) bound the error of the measured velocity, hence the speeds used by the loop and the movement per step (`Proof/Moves`, `Proof/Gentle`) |
| C55 | `exampleMain`, `simulate` on ℝ | C54 puts every pose in reach of C48; C36/C37 on every beginning of the history; a body turned about Y keeps its planar radius (`pitch_clear`), which gives random trajectories |
| C56 | `step` in any arithmetic; `run`, `soilEvolutionOn` on ℝ | the first cell of each edge is that of a vertex, and drawing guards every cell; C10 bounds skipped steps; C54 gives the pose of the blade that is outside |
| C57 | `step` in any arithmetic; `run` on ℝ | every search for free space stops at the first column without body, every pass changes unstable columns and their neighbours only, so the unstable columns spread by two columns per pass; C47 and the hull bound of C48 keep the soil on the body over the rectangle |
| C58 | `updateBodySoil` after `calcBodyPos`, `run` on ℝ | the top of every layer is within half a column and a level of a point of a face of the body (`Proof/Tops`, `top_near`); faces move with the body, so in the next pose that point is a point of a face again; along any way from a point of a face to its border one meets a drawn column at most one column away (`Proof/Cover`), so one of the nine columns searched has a layer |
| C59 | `simplexNoise`, `init` on ℝ | in skewed coordinates the squared distance is 2/3 (a² − ab + b²), so a vertex outside the triangle of a point is at least 1/√2 away and contributes nothing; the noise is a sum over at most three vertices, two values over at most six; a weighted AM-GM and the mean value theorem bound one contribution and its slope (`Proof/Noise`) |
| C60 | `simulateWrite`, `soilEvolutionWrite` | the numbers in use are an initial segment, extended by one with each call; names of different kinds differ in their first two letters; digits compare like numbers; C55 for the example |
| C61 | `updateBodySoil`, `moveIntersectingBodySoil`, `moveIntersectingBody`, `relaxTerrain`, `relaxBodySoil`, `step`, `run` | the volume of carried soil never rises in the parts before relaxation (terrain only rises, total kept); along the avalanches of C50 it rises only when the source is terrain and the target a layer |
| C62 | `relaxTerrain`, `relaxBodySoil`, `moveIntersectingBodySoil`, `relaxLoop` | simulation relation `Like` through a chart of columns (exchange of axes, or a shift); the random stream of the second run is built backwards so that every shuffle of the corresponding lists agrees |
| C63 | `step`, `run`, `calcBodyPos`, `updateBodySoil`, `moveIntersectingCells`, `relaxLoop`, `mkGrid`, `mkSimOut` | `Like` through a shift, with the *same* random stream: indices of points move along (`round` of a shifted argument, as long as it stays nonnegative), lists of columns correspond in order, so every shuffle agrees; the areas that the constructor sets to the whole grid differ, and locality (C57) shows that only columns near the rectangle are unstable in them.  `C63_step` is one step from corresponding states (with corresponding areas) in any ordered field, `C63_place` whole runs from fresh states, `C63_size` the special case of one motion on grids of two sizes. |
| C64 | `calcBodyPos`, `calcLinePos`, `calcRectanglePos`, `calcTrianglePos`; `Flt` | error analysis: a relative error `u` in each operation; along an axis the traversal's parameter stays within `O(B u)` of the exact one (`Along`, Proof/LineFlt), so each axis stops within one cell of the end point and the number of steps is at most `3 B + 3`; inner cells of faces stay in the hull of the vertices up to rounding (Proof/FaceFlt); the area with a buffer of three contains them (Proof/PoseFlt). `C49_poses` is C49 with this condition on the vertices in place of the condition on the columns. |
| C65 | `run`; `Flt` | the run of C49 is followed by a run in exact arithmetic that agrees with it on whole numbers of cells, and C37's totality argument is repeated for the calls that do not involve heights (`run_total`, Proof/TotalFlt): soil on the body sits on tops of cells of the body (Proof/TopsFlt), so its recorded positions are those of `CarryFits`. The rounded rotation lengthens a vector by a factor of at most `1 + 35 u` whatever the length of the quaternion (`rot_norm`, Proof/RotFlt), which gives `CarryFits` from a ball (Proof/BallFlt). `C65_constructed` starts from the constructors and `Init` (`constructed_start`, shared with C49). |
| C66 | `run`, `calcBodyPos`; `Flt` | through the run in exact arithmetic that C49 follows: there the layers written are the union of the cells found (C18's argument, `newBody_fit`), which carries over to the rounded run since heights agree (`calcBodyPos_drawn`, Proof/Drawn); nothing later in the step changes the body (C19). The first cell of each edge is the cell of its first vertex (`footprint_corners`), and its index has an error of at most a sixteenth of a cell (`Drawn.shown`, Proof/DrawnFlt). The vertices are those computed by the program, moved by the tolerance as `CalcBodyPos` does. |
| C67 | `calcRotationQuaternion`, `calcBodyFramePos`, `updateBodySoil`; `Flt` | the error of a product of quaternions is at most `10 u` times the lengths (each component is a sum of four products, `Accurate.sum4`, and Cauchy's inequality); with the error of the conjugate divided by the computed squared length (`7 u`) a rotation has `29 u` (`rot_err`, Proof/RotAcc, in squared lengths, so no square root is needed). Two rotations and the subtraction before them give `62 u` (`carried_err`, Proof/MovedFlt). The exact values are rational numbers, on which the model's rotation is the one characterised by C05. |
| C68 | `updateBodySoil`, `exploreOrder` | the columns searched before the one found are not suitable (`searchWall_before`, Proof/Ahead); the comparisons of places in the two lists of directions are finite facts about signs. The statement (`Ahead`, Spec/Ahead) does not mention the lists. |
| C69 | `bladeBack`, `calcNormal`, `calcBodyCornerPos` | in the reference pose the cross product is a negative multiple of `(u × v) × u` with `u`, `v` from joint to base and teeth; poses by C08 and C09 (Proof/BladeBack). The thickness of the heel is a Gram determinant. |
| C70 | `updateBodySoil`, `searchWall` | the search reads only body layers, which the transport leaves alone; per record (`updateEntry_left`, Proof/LeftBehind), then induction over the records. |
| C71 | `calcBodyCornerPos`, `calcNormal` | forward error analysis (Proof/CornerFlt, Proof/CornerDir): rotation error from C67, edges, cross product, computed length, offset, sum; a proper triangle gives a non-zero computed cross product. |
| C72 | `checkBodyMovement`, `step`, `run` | the middle of two corners moves at most as far as the farther of them (`mid_move`), errors of C71, computed distance (`dist_err`, Proof/CheckFlt); induction over the history with C12. |

Specifications used in the statements (`Spec/`): `State`, `WellFormed` (soil conventions, lattice), `Checks` (what the
two check functions document), `Geom`, `Line`, `Plane`, `Shape` (points, faces, columns touched), `Column` (heights
occupied by a body), `Footprint` (which columns a posed body can touch), `Stability` (when soil slides), `Settle`,
`Avalanche` (surfaces, single avalanches and sequences of them), `Rest` (terrain at rest, settled histories), `Active` (areas), `Transport` (where an entry is carried), `Opening`
(corridors between body layers), `Above`, `Record` (body-frame coordinates), `Reach` (distances of a body from the sides of
the grid), `Outside` (vertices drawn, box of the grid), `Carry` (exact grids, poses in general position), `Output` (contents of the files), `Example` (`Paced`: trajectories with suitable time steps), `History` (`Setup`, `Start`, `PoseOff`), `Cells`, `CellStart`, `Fits`, `Binary` (arithmetic exact on whole
numbers of cells, rounding), `Drawn` (body layers made of given cells, body layers at given vertices).

Methods used more than once:

* *Column invariant*: `WellFormed` is preserved by each elementary move of soil; every function is a composition of such
  moves (`Proof/Ops`, `RelaxT`, `RelaxB`, `InterT`, `InterB`, `InterS`).
* *Energy*: the sum of the squares of the heights of all soil, terrain and body soil, drops by at least one cell squared with every
  avalanche, so relaxation settles (C35).
* *Frames*: which arrays and columns a function can change, in any arithmetic (`Proof/Frame`).
* *Fuel*: more fuel never changes a result (`Proof/Fuel`), so results do not depend on the bounds.

The exact-arithmetic instance needs the functions sqrt, sin, cos, tan, acos and π. They are the class `Transc`, with the real
functions on ℝ (`Model/Real`). `Transc ℚ` is a placeholder used only to evaluate examples on which these functions are not
called or do not matter. Theorems for all fields that need the length of a vector assume `SqrtLaw` (the square root of a non-negative
number squares to it); `sqrtLaw_real` proves it for ℝ.

## 5. Observations on the code

Found while reading; each is either the reason for a hypothesis or stated as a theorem about the counter-example.

* `Body` starts with orientation (0,0,0,0): the former corners of the first movement check are 0/0. The check answers
  "moved" only because all comparisons with NaN are false.
* With a repose height of zero (`round(cell_xy * tan(angle) / cell_z) = 0`) two columns differing by one cell exchange their
  heights; relaxation never reaches equilibrium.
* `CheckUnstableBodyCell` returns 10/20 when the terrain is flush with the body bottom: nothing moves but the equilibrium flag
  is cleared, so equilibrium is never reported in that configuration.
* `UpdateBodySoil` drops entries with less than 0.9 cell and rounds the others; conservation holds on the lattice only. The
  initial `dist_s` is `2*half_length_z` (a number of cells) compared with distances in metres: with cells higher than
  about a metre a layer that is present may count as too far, hence the hypothesis `units` of C58 (`C70_units` and the example after it).
* `CalcBodyPos` never clears the outermost ring, and a body outside the grid is an out-of-range access.
* `simplex_noise` lacks the usual normalisation (a factor of about 70), so the terrain made by `Init` has less than four
  percent of the documented amplitude (`C59_amplitude`, `C59_flat`).
* Blade thickness is one `cell_size_xy`; the documentation speaks of two (`C69_thickness`). The back is displaced along the normal
  of the ankle, not along X as types.hpp says, and the heel is thinner, down to nothing (`C69_heel`, `C69_flat`).
* Body heights are on the cell lattice only if `grid_size_z` is a multiple of `cell_size_z`.
* `WriteSoil` may overwrite an existing `body_soil` file: only terrain names are tested.
* The relaxation area is left as it was when `RelaxTerrain` finds no unstable column.
* `RelaxTerrain` clamps the lower side of the new relaxation area to index 2, not 1: an unstable interior column with an index
  equal to one is forgotten (`C34_lost`). `CalcBodyPos` clamps the body area to `[1, 2*half]`.
* A terrain height that is not on the lattice may leave a remainder of at most `tol` that is dropped when
  `MoveIntersectingBody` or `RelaxUnstableTerrainCell` distribute a column. All heights are on the lattice in practice (C41), so the
  exact theorems assume it.
* `RelaxTerrain` with Status 10/20 on a column flush with the body never reports equilibrium (`C35_livelock`).
* Once the soil of a body column has slid away its stored height is 0, and `RelaxBodySoil` goes on comparing this 0 with the
  remaining neighbours; it may clear the equilibrium flag, but the empty entry moves nothing (`C50_body`).
* Entries of zero thickness stay in the list of body-soil entries after the soil slid away; they carry no soil and are dropped by
  the next `UpdateBodySoil`.
* `UpdateBodySoil` keeps the body-frame coordinates of an entry although it rounds its position to a column; so the
  rounding does not accumulate (C47), but several entries may share a column.
* The index of a column and its position agree only if the number of cells differs from `size/cell` by less than one half
  (`C06_index_needs_hypothesis`); the constructor rounds it so.
* Heights of the rasterised body have the offset `half_length_z*cell_size_z - grid_size_z` to the true ones
  (`C44_heightOf`), zero if the height of the grid is a multiple of the cell.
* The blade is rasterised from four rectangles: it has no side walls, as intended for a blade.
* `CalcLinePos` from a point on a cell boundary starts in the wrong column and may list columns the segment does not touch
  (`C16_boundary_start`, `C16_spurious_cell`). `CalcBodyPos` therefore nudges the vertices by `tol`; `C44_nudge` bounds the effect.
* `DecomposeVector*` with a vanishing determinant divides by zero; the comparison with NaN then answers "not inside".
* `UpdateBody` needs the list of cells sorted (`C15_unsorted_fails`); the caller sorts it.
* `MoveBodySoil` does not compare the floor and ceiling of neighbouring gaps; soil may pass between two body layers whose gaps do
  not meet (the corridor of C46 is in terms of "has a gap", not of meeting gaps).
* The example program: the trajectory index is the *ceiling* of `time/dt_int`, so each pose is extrapolated from the two following
  samples rather than interpolated between the two around the time; the error is bounded in `C54_schedule`. The factors `a_plus`,
  `b_plus`, `a_minus`, `b_minus` are computed and not used.
* The example program: there is one more pose than times, and one simulation step per time, so the last pose (the end of the
  trajectory) is never simulated.
* The example program: the documentation says that the blade keeps its orientation; the code turns it (`C53_blade_turns`).
* The example program: a start as high as the deepest point makes all heights NaN (`C53_flat`). The random trajectory of the blade
  draws both heights from the same interval, so this happens if the draws coincide.
* The example program: the indices of the trajectory are not tested. A slow body would give a negative index (the half step before
  the first time). The conditions `Paced` exclude it; the built-in trajectories satisfy them.
* The example program: the first time step is 0.1 whatever the cell size is. For both shipped bodies this is a jump of more than
  five cells of height, so the second pose always gives the warning about large movements (`C54_first_jump`); all later steps are
  between half a cell and one cell (`C54_moves`).
* The example program: the random trajectory of the blade ends at an abscissa up to 3, and the cutting edge is 1.6 further; the grid
  ends at 4. Such a draw moves the blade out of the grid, which the simulator does not test (`C56_random_blade`).
* Exchange of the two horizontal axes (C62).  `MoveIntersectingBody` handles the intersecting cells in the order of rows (the list is not shuffled, unlike the directions), and `UpdateBodySoil` prefers one axis on ties of the travelled distance, so these two parts are not symmetric; relaxation and `MoveIntersectingBodySoil` are.
* The relaxed rectangle is `[min - buffer, max + buffer)` cut off at 2 below and at `2 * half_length` above: one side of the body gets one column of terrain more than the other, so relaxation is not symmetric under reflection of an axis.
