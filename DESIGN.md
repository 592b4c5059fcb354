# Design of the formal model

Subject: `aeolis-python`, source tree `/repo` (read as text, never executed).
Model and proofs: Lean 4.33.0 with Mathlib, Lake project in `lean/`.

## 1. Layout

* `lean/Verif/Model/*.lean`  – the model; each definition cites the file and lines it models and states its simplifications.
* `lean/Verif/Spec/*.lean`   – small independent specifications used in theorem statements.
* `lean/Verif/Proofs/*.lean` – helper lemmas.
* `lean/Verif/Props/*.lean`  – the property theorems `Cnn_*`, each followed by an `example` on a concrete non-trivial case.
* `MANIFEST.json` – property → theorem names and status. `seeded/LOG.jsonl` – model-mutation experiments.

## 2. How the code is modelled

* **Numbers.** Floating point is replaced by exact arithmetic: a linearly ordered field `K` where only
  `+ - * / <` (and floor) occur, `ℝ` where `exp, log, sqrt, sin, cos, tan, tanh` occur. Thresholds and capacities use `XR`, the reals with
  `±inf` and NaN and numpy's rules for them. Elsewhere NaN is not modelled; overflow and rounding are not modelled anywhere. Division by zero is guarded: where numpy would
  produce inf/nan the model either has an explicit case or the theorem has the hypothesis that excludes it.
* **Arrays.** Cell-local code (bed layers, thresholds, moisture, vegetation, ...) is modelled for one cell with
  arbitrarily many layers/fractions; numpy applies the same expression to every cell, including the places where
  `np.any` is only used to skip work. Cross-cell code (avalanching, advection matrix, filters, time step choice)
  is modelled on a grid of arbitrary size.
* **Text.** Strings are `List Char` / `String`; Python's `re`, `split`, `strip`, `%d` as used are re-implemented.
* **State and history.** The classes (`ModelState`, the BMI object, the runner with statistics and output, the netCDF
  file, the backup directory) are transition systems; properties over histories are proved by induction on the
  sequence of operations, of any length.
* **Exceptions** are values (`Except`/`Option`).
* **External libraries** (`spsolve`, `scipy.ndimage.gaussian_filter`, Bessel functions, netCDF4) are not modelled; where their
  result enters, the theorem quantifies over every possible result (or over every solution of the linear system). The discrete
  Fourier transform and `RegularGridInterpolator` are modelled by their defining formulas.

## 3. Trusted base

Lean's kernel; the axioms `propext`, `Classical.choice`, `Quot.sound` (reported by `#print axioms`, see section 6); Mathlib's definitions of
the reals and elementary functions; the faithfulness of the hand-written model (checked by reading, and by the
mutation experiments in `seeded/`). No own axioms, no `sorry`, no `native_decide`/`bv_decide`.

## 4. Plan per property

* **C01 Configuration values are classified by a fixed grammar.** `parse_value` mirrored on `List Char`; grammar given as a separate inductive/decidable spec; proved equal for all strings.
* **C02 Printed configuration values read back unchanged.** `print_value` + `parse_value`; digits of `Nat` read back (induction on the decimal representation).
* **C03 Configuration file: last assignment wins, all else keeps its default.** `read_configfile` as a fold over lines; spec = last matching line; induction over the line list.
* **C04 Inline comments and trailing '=' text do not influence a value.** Corollaries of the `cut at %` / `split('=')[:2]` model, for all strings.
* **C05 Derived defaults are filled only when no value is given.** Post-processing of the dictionary as function update; frame theorem.
* **C06 Configuration check accepts exactly the usable input files.** `check_configuration` with shapes of parsed values; iff with an independent predicate.
* **C07 Backups never overwrite a file.** File system as `name → Option content`; lowest free index; transition system, invariant by induction. Restriction: only names produced by the backup scheme, injective in n.
* **C08 Time series are reproduced exactly inside their time range.** np.interp on lists of knots + circular wrap; equality on each segment.
* **C09 Time series repeat periodically.** Euclidean mod with `Int.floor` in a floor field.
* **C10 Interpolated conditions never leave the range of the data.** Bound by induction over the knot list.
* **C11 Normalisation yields fractions.** `normalize` on `Finset` sums.
* **C12 Tiny negatives, and nothing else, are replaced.** Pointwise function; algebra.
* **C13 Complex masks scale and shift.** Pointwise with complex mask as pair.
* **C14 Rotating a grid is a rigid, invertible motion.** `rotate` over ℝ with sin/cos identities.
* **C15 Mean grain size lies within the grain size range.** Weighted mean inequality.
* **C16 Immutable state variables keep their value.** Transition system over op sequences; spec = latest effective assignment; `update` bypass as counterexample.
* **C17 BMI set/get round trip.** BMI object as record of two finite maps; get/set laws.
* **C18 Variable enumeration is a bijection.** Sorted key list; nodup/permutation.
* **C19 Every state variable gets exactly one shape.** Transcribed table; shape function for all nx, ny, nl, nf; names by shape in the theorem.
* **C20 The time step never exceeds the requested or configured one.** `set_timestep` mirrored; min bounds, positivity; counterexample for negative step.
* **C21 Explicit scheme stays within the CFL limit in every cell.** dtref as sum of maxima over all cells; per-cell inequality.
* **C22 Simulation time advances and the run ends.** Run loop as iterated step; exact count with floor; non-termination for calm explicit runs.
* **C23 Fast-forward steps only move the clock.** `update` control flow as list of executed processes.
* **C24 The grid keeps its orientation across time steps.** Rotation round trip iterated; counterexample for the early return.
* **C25 Order of processes in a time step.** `update` control flow with physics as uninterpreted state transformers; trace of executed processes.
* **C26 Output statistics are the statistics of the steps since the last output.** Accumulator fold refined to List min/max/sum/mean/variance; Cauchy–Schwarz for variance ≥ 0.
* **C27 Every step of the runner succeeds.** Runner automaton; induction on histories; failing history as counterexample.
* **C28 Output interval.** Output automaton over any sequence of times.
* **C29 netCDF records are append-only with contiguous time bounds.** netCDF file as lists; append-only invariant.
* **C30 Every requested output is produced once.** Table construction as fold; set characterisation and nodup.
* **C31 Name resolution of the runner's get_var.** Name resolution mirrored; positive theorem + counterexamples.
* **C32 Initial bed composition.** Initial mass formula; sums.
* **C33 A bed update keeps the mass of every layer.** Layer model with arbitrary layers/fractions; telescoping exchange.
* **C34 A bed update balances every fraction.** Column sum telescopes.
* **C35 A bed update never creates negative mass.** Componentwise inequality.
* **C36 Bed level follows the net pickup.** dz formula; counterexample for large deposition.
* **C37 Bed bookkeeping over a whole run.** Invariant by induction over the list of pickups.
* **C38 Wave mixing only redistributes.** nanmean over masked layers; sums.
* **C39 Wet bed reset relaxes towards the initial bed.** Scalar relaxation; contraction.
* **C40 Reported bed level change is the change over the step.** Scalar algebra.
* **C41 No avalanche below the static slope.** Gradients on ℕ-indexed grid; border gradient zero.
* **C42 Avalanching conserves sand except across the border.** Double sums with shifted indices; explicit border loss.
* **C43 Avalanching ends below the dynamic slope or at the iteration limit.** Loop with fuel = max_iter; postcondition.
* **C44 Initial transport weights are fractions.** Weights algebra.
* **C45 Renormalised weights always sum to one.** Weights algebra, unconditional sum.
* **C46 Pickup does not exceed the sediment available.** Per-fraction iteration with arbitrary solver oracle; invariant at exit; counterexample at the limit.
* **C47 Removing negative concentrations conserves sediment.** List sum algebra.
* **C48 The one-dimensional transport system has one, non-negative, solution.** Sparse diagonals decoded into cell equations; march over columns, each column a cyclic M-matrix; uniqueness by linearity, existence by dimension. Transects with any wind: every row refers to one upwind neighbour, so a kernel vector vanishes along chains that end at a boundary or in a pair of cells that face each other.
* **C49 Sediment budget of a transport step.** Sum of the cell equations, telescoping; for velocities of changing sign the terms that do not telescope are the loss.
* **C50 Boundary condition selection.** Boundary selection mirrored as decision function over strings.
* **C51 Alongshore transport direction does not matter for the budget.** Same sum for the other sign; the residual is computed exactly.
* **C52 No transport below the threshold.** Formulas over ℝ; max(0,·).
* **C53 Transport capacity grows with the wind.** Monotonicity of the formulas.
* **C54 Acceleration factor.** Algebra of the scaling; induction over steps.
* **C55 Moisture never lowers the threshold.** Per method inequality; counterexamples for replacing methods.
* **C56 Wet cells do not erode.** Selection logic with ⊤; formulas over the reals in Spec/MoistThreshold for the ten formulations (Props/MoistThreshold).
* **C57 The non-erodible layer is protected.** Selection logic with ⊤ and composition with C52.
* **C58 Sheltering factor.** Real sqrt algebra.
* **C60 Water level never below the bed and waves depth-limited.** Pointwise min/max.
* **C61 Soil moisture by infiltration stays physical.** exp decay; induction over step lists.
* **C62 Surface moisture stays between residual and saturated.** clamps; induction over steps.
* **C63 Runup formula.** Stockdon formulas over ℝ.
* **C64 Soil water retention stays between the main curves.** Scanning-curve algebra and branch selection.
* **C65 Groundwater does not rise above the bed.** clamp logic.
* **C66 Salt content stays physical.** Clamp and case analysis of failures.
* **C67 Vegetation stays in range.** Growth step clamps; invariants by induction.
* **C68 Flooded or low vegetation dies.** masking logic.
* **C69 Density-based vegetation growth.** Invariant by induction; truncation of integer arrays modelled; counterexample for growth switched off.
* **C70 Vegetation and fences reduce the shear.** Product of factor in [0,1] and floor.
* **C71 Raupach reduction factor.** 1/sqrt(1+x).
* **C72 Fences.** Transition system over bed histories.
* **C73 Shear velocity and stress conversions are inverse.** ℝ algebra with sqrt.
* **C74 Wind decomposition.** sin²+cos².
* **C75 Shear over a transect.** Reindexing of the sum; reflection.
* **C76 Generated wind series.** Generator as list transformer over random draws.
* **C77 Dune erosion only removes sand landward of the toe.** Profile model with index window.
* **C78 Grid metrics.** Grid algebra.
* **C79 Grain size percentiles.** TODO
* **C80 Avalanching and the non-erodible layer.** Bound on the outgoing flux (Cauchy–Schwarz, tanh is 1-Lipschitz); induction over the iterations for a whole call; counterexample.
* **C81 Weights and concentrations stay physical through the solver.** Invariant of the loop over fractions.
* **C82 Constant grain speed.** Case distinction; √((a²+b²)/c²)=1.
* **C83 Threshold mask.** Case distinction on extended reals.
* **C84 Thresholds have no memory.** Equality of results; induction over steps for the compounding.
* **C85 Surface properties only raise the threshold.** Chain of inequalities through the corrections.
* **C86 Groundwater steps cover the time step.** Floor arithmetic.
* **C87 Groundwater at rest stays at rest.** Algebra; induction over steps; exact criterion for change.
* **C88 Suction head at reversals.** Limit argument for termination; counterexample; inverse of the retention curve.
* **C89 Evaporation.** Monotonicity over ℝ.
* **C90 Infiltration from runup.** Index arithmetic.
* **C91 Germination and lateral expansion.** rpow laws; case analysis of neighbours.
* **C92 Aerodynamic roughness.** Convexity; algebra.
* **C93 Flow separation on transects.** Case analysis; the separation surface is arbitrary.
* **C94 Printed numbers read back within the printed precision.** Digits of a fixed-point number read back; rounding error bound.
* **C95 Grid orientation.** sin/cos of arctan; case analysis on the direction of the first row.
* **C96 Distribution of generated winds.** Detailed balance from the symmetry of the weights; induction on the iteration.
* **C97 Finite-volume solver: the linear system.** Sparse assembly reduced to cell equations; column sums over decoupled sets of columns give a monotone matrix.
* **C98 Finite-volume solver: sediment budget.** Matrix and right hand side written as flux differences, which telescope along and (cyclically) across rows; counterexamples for the settings left out.
* **C99 Finite-volume solver: one call.** Induction over iterations and fractions; non-negativity from C97.
* **C100 Finite-volume solver: settings.** Case analysis of the settings; unit rows of the matrix; induction over iterations.
* **C101 Reference capacity at flux boundaries.** Case analysis of the formulations, both calls unfolded.
* **C102 Bed update is local.** Each guard skips a step that leaves the cell unchanged; one step after the other.
* **C103 A run is the iteration of callback and update.** Loop invariant relating runner state, path of states and output writer; converse by induction on the path; run of the physical model arbitrary.
* **C104 Progress messages.** Loop invariants: partition of the time steps; increasing whole percentages.
* **C105 Callback definition.** Lemmas on splitting at a separator; case analysis.
* **C106 Hotstart files.** Induction over the files.
* **C107 Steady-state solver: linear system.** Assembly of `solve_steadystate` (settings, coefficient grids, diagonals, right hand side) with the same matrix type as `solve`. Rows of its matrix are positive multiples of those of a time step with doubled adaptation time, so C48 carries over; the fixed-point equivalence compares the equations cell by cell and gives the budget from C49; saturation by induction along the transect.
* **C108 Computational grid of the shear module covers the input grid.** Projections of the corners on the wind frame; the extent of the grid is attained at corners; floor and ceiling of the axes.
* **C109 Resampling between rotated grids.** The two rotations of `interpolate` reduce a rectangular grid to axes; odd reflection of an equidistant axis; bilinear weights.
* **C110 Stress perturbation by the bed.** The spectral computation rewritten as a periodic convolution; geometric sums for the constant; transfer function and Bessel function arbitrary. Props/ShearWaves.lean: spectrum of a wave and the formulas of the theory.
* **C111 Stress on the output grid.** The call with its rotations removed; interpolation commutes with the rotation of the stress.
* **C112 Separation surface.** Invariant over the list of bubbles: the surface is at least and attains one of the streamlines; the code's cubic equals the Hermite form of the specification; filtered bubbles as iterated refits, one row at a time (Props/ShearFilter).
* **C113 Separation surface over a transect.** Membership of the list of bubbles characterised by slopes; induction over the list for points out of reach; closed form for a list of one.
* **C114 Tapering of short waves.** Monotonicity of the logistic function; values at the ends.
* **C115 Fences on two-dimensional grids.** Rotations cancel, leaving one interpolated field times a fixed direction; bounds of bilinear interpolation; the wind-aligned grid covers a rectangular grid.
* **C116 Sand balance of bed and air together.** Budget of the linear system (C49) with the weights of the last iteration, bed level (C36), sum over cells; induction over the steps; avalanching by C41, C42.
* **C117 Output of one run as input of another.** Arrays in C order (ravel/unravel inverse), rows written and read back, reshape and broadcasting.
* **C118 Input files on the grid.** Broadcasting of the squeezed array of a file to the grid, element by element.
* **C119 Units in the output file.** Regular expression as a recursive matcher; form of matching lines both ways; fold over the lines; evaluation on the lines of the file by the kernel.
* **C120 Parameters set before a run.** Runner as state with the files on disk; induction over the calls.
* **C121 Counters.** Counters as a dictionary; induction over the increments.
* **C122 What never changes in a run.** Mixing (C38), solver (C81), bed update with small (C33, C35) and large deposits; induction over the steps; C48 for the linear systems.
* **C123 Water levels in a time step with groundwater.** Time step of water levels and groundwater (Model/HydroStep) with the interpolation repeated in the groundwater steps; interpolation forgets the earlier conditions; induction over the groundwater steps.
* **C124 Cells marked as wetting.** The same model, with the reference kept in `gw_prev`; two successive steps.
* **C125 From wind to bed: a step keeps the state sound.** Model of the chain from wind to bed (`Model/Whole`) put together from the models of thresholds, capacities, weights, matrices, solver and bed; invariant by induction over the steps; the linear solver is a parameter that solves regular systems, and the systems are shown to be regular.
* **C126 Where a step does not erode.** The same model; the cases of a cell without capacity, capacity zero implies no pickup, no pickup implies no lowering.
* **C127 Wind below the threshold moves nothing.** The same model; zero capacities, zero right-hand side, zero solution of a regular system, nothing exchanged; induction over the steps. For thresholds from a file the right-hand side is positive, hence the solution is not zero.
* **C128 Concentrations do not exceed the transport capacity.** Comparison of the solution with a constant (row sums of the matrix and C48), then the weights in all iterations are at most one; every correction lowers the excess over what the bed holds by more than the tolerance, so the iteration ends (Props/SolverBound.lean); induction over the steps. Witnesses for slowing grains and for an iteration that reaches its limit (C128_limit_reached). Props/Fractions.lean: two grain sizes, one of them limited.
* **C129 Grain speeds after Duran.** Decomposition of the velocity into driving wind and drag along a unit vector, then bounds by the triangle inequality; characterisation of the cells without a velocity.
* **C130 Water levels and waves from another model.** Interpolator of the library as any function returning a nearest cell; case analysis of one call, induction over the calls for the masks, refinement to the single row without delivered variables.
* **C131 Balance of sand from the wind to the bed.** Step of the chain mapped to a step of the balance (C116); matrix from the assembled system, capacities equal at bed and in fences without a hard layer; induction over the steps; seaward value of the system (C50); C128 for thick beds.
* **C132 What a time step computes from what.** Unfold a step of the chain; trace of the iterations of the solver for a fraction through the loop over fractions; budget of a cell for any wind and implicitness (C49, C50); weights unchanged when nothing limits (C44).
* **C133 A complete time step on a transect, from the input files to the bed.** Model/Full.lean composes the models of wind, shear, fences, vegetation, time step, water, groundwater, moisture, chain, avalanches, wet bed reset and dune erosion to `update`; the refinement to runs of Model/Whole.lean and totality are proved in Props/Full.lean.
* **C134 Runs from the input files: no transport in a breeze, bounded concentrations in a storm.** Props/FullRun.lean: C127 and C128 applied through C133; the wind is bounded by the file with C10, the capacities by Bagnold's formula.
* **C135 Balance of sand of runs from the input files.** Props/FullBudget.lean: C131 applied through C133; what leaves a transect sideways is part of the balance (aside in Spec/Sand.lean).
* **C136 Runs from the input files do not erode what is under water.** Props/FullWater.lean: C126 applied through C133; water levels by C60 and C63, moisture of flooded cells by C61 and C62.
* **C137 Ranges of water, moisture, salt and vegetation and the clock in runs from the input files.** Props/FullRange.lean: induction over the calls, the step by C133 with C60, C61, C62, C66, C67 and C69.
* **C138 No slope above the angle of repose after a call.** Props/FullSlopes.lean: on a transect the gradient is the drop towards the lower neighbour; then C43, applied to the last avalanching of a call by C133.
* **C139 Avalanching needs a file with the non-erodible layer.** Props/NoLayer.lean: comparisons with NaN are false, so no sand moves in a redistribution; equality of runs by induction over the calls.
* **C140 A complete time step on a planar grid, from the input files to the bed.** Model/Planar.lean composes the models of wind, shear, fences, vegetation, time step, water, groundwater, moisture, chain, avalanches, wet bed reset and dune erosion to `update` with several rows; refinement to runs of Model/Whole.lean, the sector of wind directions (a combination of sines and cosines that stays negative under interpolation) and totality in Props/Planar.lean; with groundwater a call returns exactly if the groundwater does (C140_returns).
* **C141 Runs on planar grids from the input files: nothing moves in a breeze, bounded concentrations in a storm.** Props/PlanarRun.lean: C127 and C128 applied through C140, as in C134; the sheltering of plants reduces the shear velocity.
* **C142 Balance of sand of runs on planar grids from the input files.** Props/PlanarBudget.lean: C131 applied through C140; grain speeds are uniform, so what leaves a row sideways enters the next.
* **C143 Runs on planar grids from the input files do not erode what is under water.** Props/PlanarWater.lean: C126 applied through C140; water levels by C60 and C63, moisture of flooded cells by C61 and C62.
* **C144 Ranges of water, moisture, salt and vegetation and the clock in runs on planar grids.** Props/PlanarRange.lean: induction over the calls, the step by C140 with C60, C61, C62, C66, C67 and C69.
* **C145 No slope above the angle of repose after a call on a planar grid.** Props/PlanarSlopes.lean: inside the grid the gradient combines the drops towards the lower neighbours in row and column; then C43, applied to the last avalanching of a call by C140.
* **C146 Complete runs of the program on a transect.** Props/Program.lean: the initialisation (grid, wind convention, bed composition, vegetation, fences) computed on a transect gives a configuration and state satisfying the hypotheses of C133-C135; the runner of C103 with the engine of the complete time step; the path of the runner by induction on the number of steps, its uniqueness, and C134, C135 for the calls. Props/ProgramAny.lean: from a run that returns the calls of update and the number of steps are recovered by induction on the rounds of the runner; then C134, C135, C137 for the calls; completion with groundwater by an invariant that keeps the bed in a breeze, and C123 for the failures.
* **C147 Complete runs of the program on a planar grid.** Props/PlanarProgram.lean: the initialisation on a planar grid gives a configuration and state satisfying the hypotheses of C140-C142, with the cell sizes of C78; a general lemma on runs with an engine that counts its steps and moves the clock evenly; then C141, C142 for the calls. Props/PlanarProgramAny.lean: the same for runs that return, with C144 for the ranges and C148 for groundwater.
* **C148 Groundwater on grids of several rows.** Model/PlanarGround.lean: the groundwater steps with all rows, Props/PlanarGround.lean: induction over the groundwater steps; comparison with the transects of C123 row by row; the level in the column of the shoreline of the row before, directly from the last step.
* **C149 What a time step with groundwater computes.** Props/GroundTrace.lean: specification of the stages, the infiltration and the limits as relations; every groundwater step meets them (case analysis), induction over the steps; transects as grids of one row.
* **C150 More supply or capacity never means less sand in the air.** Difference of two solutions: the system is linear and keeps signs (C48); Props/SolverOrder.lean.
* **C151 Nothing travels upwind.** Equations of the first columns contain these columns only; induction over the columns for the difference of two solutions.
* **C152 Concentrations approach the steady state for every time step.** Constants as supersolutions (row sums, as for C128) bound the difference from a fixed point; induction over the steps, limit over the reals; C107 for the relation to the steady solver.
* **C153 Linear response of the concentrations.** Rows and right hand sides are linear; uniqueness (C48) for the last part.
* **C154 Rows with equal inputs behave like a transect.** Copies of the solution of the transect solve the planar system, which has one solution (C48); comparison of two systems for the loss. Props/SolverRows.lean.
* **C155 Limits on the time step in complete time steps.** Inputs of the time step choice in a complete step made explicit, lemmas of C20 and C21; a call with limits equals a call without them, by comparing the branches. Props/StepLimit.lean.
* **C156 Roughness from the bed and grain speeds of the drag law in complete time steps.** From the parts of an executed step: the roughness of all cells, the shear velocity of the undisturbed wind, and the grain speeds, whose thresholds are those of the chain; totality from the existence of velocities on a gentle bed.
* **C157 The order of the sediment fractions, and fractions of which there is nothing, do not matter.** A relation between amounts under the old and the new numbers, kept by sums, by functions that vanish at zero and by every branch of the update; then induction over the updates. The renormalised weights inside the solver are not covered: where the sum is zero they are filled with one over the number of fractions, which depends on the fractions that are absent.
* **C158 Avalanching does not depend on the datum or on where the grid is numbered from.** Each gradient and flux of the changed grid is one of the original grid (the two sides exchanged); sums of in- and outgoing fluxes and the largest slope are therefore the same; induction over the iterations.
* **C159 Wind from the land is wind from the sea seen from the other side.** Row by row the equations of the reversed grid are those of the original one with the two neighbours exchanged (`row_fromLand`, `rhs_fromLand`); the boundary rows exchange places. The results for wind from the sea (C150, C153) are then carried over.
* **C160 The datum of the levels does not matter.** A relation between the states of the two runs (bed raised, all else the same) is shown to be kept by each part of the time step: water levels, moisture, transport chain, avalanching, dune erosion, vegetation; the initial states of the two sets of files are related; the runner sees times, steps and errors only, which are equal (`C160_same_run`). The same on planar grids, where rows are collected and avalanching is compared on the cells of the grid only (`C160_planar_program`). Counter-cases: fences, groundwater.
* **C161 The origin of time does not matter.** Interpolation in a moved series, or a period later, gives the same value (knots, extremes and remainder of the division move along); two configurations whose series agree in this sense (`Delayed`) then give equal parts of the step; induction over the calls, with time that does not run backward (from C133, C140).

## 5. Where the code departs from its documentation or from the expected property

Each item is backed by a theorem (often a counterexample theorem) unless marked *(read only)*.

* **Deposition larger than the top layer** (C33, C36): net deposition equal to the top layer mass doubles the top layer; larger deposition does not change the bed level.
* **Circular interpolation** (C09): the period is one second longer than the series and the documented `f(x - max)` is off by one second.
* **Integer `grain_dist`** ignores `bedcomp_file` because of operator precedence *(read only)*.
* **Immutable state** (C16) is bypassed by `dict.update` and by in-place operations; names first created by `update` are locked.
* **Negative time step** (C20) when the bed falls everywhere and the bed level limiter is on.
* **Explicit run in calm wind never ends** (C22); after a skipped step **the grid stays rotated** (C24).
* **Statistics-only output fails** (C27): `self.clear` is not initialised, so the first step raises `AttributeError`. Reading any variable through the runner clears the statistics at the next step (C26).
* **Name resolution** (C31): `get_var('dt_opt')` returns `dt`; names with two underscores raise `ValueError`; the output variable `w_init` is taken as statistic `init` of `w`.
* **Failed netCDF append** (C29) leaves a record without bounds; earlier records are intact.
* **Avalanching** discards the sand that slides towards the border (C42) and can erode below the non-erodible layer (C80).
* **Onshore boundary setting** (C50): tests `boundary_offshore` instead of `boundary_onshore`; offshore `noflux` silently overrides the onshore setting; onshore `noflux` is rejected.
* **Planar grids with two rows (or two columns)** cannot be solved: `scipy.sparse.diags` gets repeated offsets (C50).
* **Lateral boundary `constant`** (C50) replaces the equation by `Ct_new = Ct_old + w Cu dt/T`: the concentration grows every step.
* **Alongshore transport towards lower rows** (C51): the diagonal is shifted by one row, the velocity two rows ahead is used, sediment is created or lost where it varies. Across the circular boundary the first row uses its own velocity instead of that of the last row (C49).
* **Diverging winds** (C48) give negative concentrations from non-negative data; they are removed afterwards, with positive concentrations turned negative if the total is negative (C47).
* **Acceleration factor** (C54): `Cu0` is multiplied by `accfac` in every step without being recomputed in calm cells and for `kawamura` and `lettau`; with transport off all concentrations are.
* **`bagnold_gs` fails on planar grids** (C52, `IndexError`); its `Cuf` and `Cu0` and the `Cuf` of `vanrijn_strypsteen` use the corrected threshold `uth` instead of `uthf`/`uth0` (visible in the model).
* **Unknown moisture formulation** (C56) raises `KeyError` instead of `ValueError`. **Sheltering** (C58) fails unless `m` is set by the user; it *lowers* the threshold if `beta/sigma (1 - m g) < 1`, and gives NaN over an empty top layer. **Dry layer and humidity options** (C85) call functions that do not exist.
* **Non-erodible layer** (C57): only `uth` is made infinite, so `Cuf > 0` remains and the solver still has a source term there. With `threshold_file` the infinite threshold is never reset (C84).
* **Mask with zero real part** (C83) gives NaN in flooded cells (`inf * 0`).
* **Corrections compound** if `th_grainsize` is off (C84).
* **Runup off** (C63): `TWL` and `DSWL` are only assigned with `process_runup` (off by default), so moisture, groundwater and mixing depth then use a water level of zero instead of the tide.
* **Stockdon** (C63): the array form gives no runup at an Iribarren number of exactly 0.3, and runup on slopes that are not positive.
* **Groundwater steps** (C86): `int(dt/tfac_gw)` is zero for `dt < tfac_gw` (`ZeroDivisionError`); up to one groundwater step of time is lost per time step; the message for an unknown boundary cannot be formatted (`TypeError`).
* **Boussinesq** (C87): the second term uses the sum instead of the difference of neighbouring levels (a flat table moves where cell sizes vary), and `shl_ix[i-1]` is the shoreline of another row, not the neighbouring cell.
* **Retention curves** (C64): with the default parameters the drying curve is below the wetting curve about 9 m above the groundwater, so that scanning moisture is then on the wetting curve. **Suction head** (C88): zero at every reversal on a wetting scanning curve because the default `alfaw` is negative; the search loop may run for ever for `resd > resw`.
* **Salt** (C66): needs the meteorological series, which is only read for the surface moisture method.
* **Regrowth without germination** (C68): `dhveg` of cells that are not germinated keeps its last value and is still added to the height, so vegetation killed by a flood returns in the next dry step with both probabilities zero.
* **Density-based growth** (C69): `germinate` stores the neighbour count (an integer array) in `drhoveg`; growth rates written into it afterwards are truncated to whole numbers per year, and with `V_ver = 0` the count itself is the growth rate. The configured step `dt` is used instead of the step taken. Germination has no effect (bare cells are reset to zero).
* **Okin sheltering** (C70) picks the sheltered side from the wind direction alone, ignoring the orientation of the grid; for a direction of exactly -180 degrees plants and fences pick opposite sides.
* **Fences** (C72) whose top is below +0.1 m of the datum never act.
* **1D flow separation** (C93) reduces only the components; `tau` is not updated before `stress_velocity`, so the shear velocity that drives transport is unchanged inside the bubble. In `separation1d` `np.logical_and` is called with three arrays: the third is the output, so a gap is filled without looking downwind (not modelled).
* `interpolate` stores the magnitude `ustar` in both `ustars0` and `ustarn0` (not used elsewhere).
* **Roughness** (C92) `vanrijn_strypsteen` is NaN when the grain shear velocity equals the threshold (0/0).
* **Lists load files** (C01) even with `parse_files=False`: the flag is not passed on to the items. Numbers in scientific notation are texts.
* **Arrays of booleans** (C02) are printed as 'True'/'False' and read back as texts; one-item lists read back as single values; items without value are printed '<novalue>'. Printed numbers keep six decimals below one and two above (C94), so small grain sizes are rounded.
* **`write_configfile`** calls `iterkeys` and **`dump_restartfile`** pickles into a file opened as text: both always fail in Python 3.
* **Configuration check** (C06) uses the configured `ny` (default 0), not that of the grid: a missing y-grid of a planar model is not detected.
* `Runner('DEFAULT')` uses the module's `DEFAULT_CONFIG` itself (no copy) and calls `np.linspace` with a float count, which raises `TypeError`. The default `output_vars` lacks a comma ('mass' 'pickup'), so that the default names a variable 'masspickup' that does not exist.
- **Wind generator** (`model.py:3151`): subtracts 0.5 instead of half a bin, so speeds leave the bin of their state unless bins have size one, and exceed the maximum speed for bins larger than one (`C76_bin`, `C76_maximum_exceeded`). A time step that is not positive never ends (`C76_no_progress`).
- **Grid sizes exchanged** (`gridparams.py:203-204`): for planar grids `ds` is the spacing between rows and `dn` that between columns; `ds` is otherwise the size along a row (transects, transport solver). Harmless only for square cells (`C78_sizes_exchanged`).
- **Grid orientation** (`gridparams.py:183-192`): rows towards smaller x and larger y are aligned in descending order (`C95_descending`); the warning that grids should be ascending "after rotation" tests the grid before rotation (`C95_warning_before_rotation`).
- **Dune erosion** (`erosion.py:134-147`): eroded sand is not deposited; the redistribution is commented out although the comment claims mass conservation (`C77_sand_is_lost`).
- **Finite-volume solvers, wind towards lower rows** (`model.py:2026-2040`): the entries for the next row are shifted as if they were stored with the arrival cell, so sediment leaving the last row vanishes and non-uniform winds are not conservative (`C98_backward_wind`).
- **Steady finite-volume solver, circular sides** (`model.py:1656-1661`): the concentration at the last lateral face is never set, so sediment entering the first row does not leave the last one (`C98_steady_circular`).
- **Finite-volume solvers, circular sides on a transect**: the matrix contains the cross wind on its diagonal, the right hand side does not; the budget closes only for zero increments (`C98_transect`).
- **Steady finite-volume solver, constant ends** (`model.py:1689,1707`): the prescribed value is used as increment, so the end grows by it in every iteration (`C100_steady_end_grows`); the version in time ignores the value (`C100_fixed_end`).
- **Finite-volume solvers, pickup** (`model.py:2189-2201`): stored before it is limited to the mass in the top layer (`C99_pickup_above_mass`).
- **Finite-volume solvers, onshore flux** (`model.py:2118-2121`): a prescribed flux at the onshore end is added for a wind towards the end (`onSupply` in `Spec/SolverFV.lean`, used in `C98_budget`).
- **Unknown solver** (`model.py:662-720`): ends in `UnboundLocalError` instead of a configuration error (`C100_solver_names`).
- **Bed update with negative top layer mass** (`bed.py:325-451`): the `np.any` guards make the result of a cell depend on other cells when its top layer mass is negative (`C102_negative_not_local`).
- **Restart files** (`model.py:2836-2880`): opened in text mode, so neither writing nor loading can work: a run given a restart file always fails (`C103_restart_never_loads`), and a run completes only if no restart output is ever due (`C103_needs`).
- **Runs not starting at zero** (`model.py:2656-2675`): `update` reads a flag that exists only after the first output record; with `tstart` between zero and the output interval the first update raises `AttributeError` (`C103_needs`).
- **Reported average time step** (`model.py:3004`): the stop time over the number of steps, ignoring the start time and the overshoot (`C103_completed`).
- **Callback text** (`model.py:2883-2919`): without colon, or with an unknown function, it is silently ignored; with a Windows drive it is rejected (`C105_callback_text`).
- **Steady-state solver, several fractions** (`model.py:741`): `p['grain_dist'] != None` compares the array element by element, so the first time step raises `ValueError` unless there is exactly one fraction (`C107_first_step`).
- **Steady-state solver, sides of kind `constant`** (`model.py:888-899`): the first and last row hold `w Cu / T`, a concentration divided by a time (`C107_lateral_constant`). `noflux` is not accepted although the default solver accepts it (`C107_settings`).
- **Stress perturbation depends on the datum** (`shear.py:547-548`): the wave numbers are `fftfreq(n+1)[1:]` while the spectrum has the bins of `fftfreq(n)`, so the mean bed level is treated as a wave of the length of the grid; raising the bed by `h` adds a constant to the perturbation everywhere (`C110_datum`, `C110_wavenumbers`). A roughness field is likewise used as if its cells were wave numbers (`spectralX`).
- **Orientation `alfa` and shear** (`wind.py:121-122`, `shear.py:166`): components of the stress are turned by `alfa`, the wind direction given to the shear module is not, so with `alfa` the stress is not along the axis of the computational grid (`C111_wind_frame`); for 180 degrees it would be clipped to zero.
- **Separation below datum** (`shear.py:399,472`): the surface starts at zero, so a bed below datum counts as filled up to datum although there is no stall; more than 0.1 m below, the stress is set to zero (`C112_no_bubble`, `C111_under_bubble`).
- **Stall** (`shear.py:414-416`): the third argument of `np.logical_and` is its output, so the intended test of the next column is not made (model of `stall`).
- **Separation filter** (`shear.py:383,402,474-510`): `ny = len(z[0])` is the number of columns: `IndexError` for bubbles in rows beyond (`C112_filter_error`); the loop variable `k` replaces the wave numbers, so that the filter multiplies the surface by one number, that of the row (`C112_filtered`).
- **Tapering** (`shear.py:668-677`): the widths in the two directions differ (`n1` against `n2`), so short waves across the wind are damped more (`C114_ends`, `C114_across_differs`).
- **Separation over transects** (`wind.py:389-394`): for wind exactly at right angles to the transect the distance between points is set to 0.0001 m, whatever the cell size, so that any descent counts as steep (`C113_alongshore`).
- **Separation over transects** (`wind.py:485-499`): the final streamline uses the height above datum instead of the drop and the slope of the intermediate surface, which is zero upwind of the brink, instead of that of the bed; past its end the bubble is filled up to datum (`C113_single`).
- **Fences, 2D** (`fences.py:205`): the two components change places when they are rotated back, so that the shear velocity that comes out is at right angles to the wind, with fences or without (`C115_right_angle`, `C115_no_fence_turned`, `C115_onshore_becomes_alongshore`).
- **Fences, 2D** (`fences.py:190-191`): the wind on the computational grid is the component across the shore alone, so that a wind along the shore vanishes (`C115_ignores`, `C115_alongshore_lost`).
- **Fences, 2D** (`fences.py:345,360-363`): distances behind a fence are differences of the rotated x coordinate, i.e. the distance along the wind times the sine of the direction (`C115_distance`).
- Transport scheme, cross-shore velocities of changing direction (model.py:1206-1217): each cell uses its own direction for both of its faces. Where
  neighbouring velocities differ in direction the sediment carried by both cells is lost (`C49_transect_budget_exact`, `lostBetween`; two units
  flow in and none flow out of a steady state in `C49_converging_loses`).
- Crank-Nicolson and Euler forward (model.py:1388): the pickup taken from the bed is computed with the new concentrations only, the uptake in the linear
  system with the weighted average; they differ by the amount given in `C49_uptake_against_pickup`.
- Deposition above the mass of the top layer (bed.py:414-449): what is left after whole layers have been put on top is neither in the layers nor in the bed level (`C33_large_deposit_layers`, `C33_large_deposit_composition`, `C36_large_deposit_leaves_bed_level`).
- A file with one column is read as a one-dimensional array (`np.loadtxt`, inout.py:289) and assigned along the rows (bed.py:72): on a square grid a file with one bed level per row is accepted and transposed (`C118_column_becomes_row`).
- Masks (bed.py:112) and `bedcomp_file` (bed.py:104) are only checked for the total number of values: lines and columns, or layers and fractions, may be exchanged unnoticed (`C118_masks`, `C117_layers_fractions_exchanged`).
- `threshold_file` (bed.py:116) cannot be used for transects: the file of one line has one dimension and `[:,:,np.newaxis]` raises `IndexError` (`C118_thresholds`).
- Wind, tide and weather files with a single record are rejected as invalid (inout.py:198-208) since they are read as one-dimensional arrays (`C118_series`).
- The comments of the variables for moisture and groundwater have a tag `#NEWCH` before the brackets (constants.py:82-95), which the pattern of `parse_metadata` (netcdf.py:440) does not allow: these variables have no units in the output file (`C119_variables_without_units`).
- Parameters set with `set_params` before `set_configfile` are lost without notice: `set_configfile` clears the flag that they must be written (model.py:2543), and `initialize` reads the file (`C120_settings_before_configfile_lost`).
- `AeoLiSRunner()` without a configuration file always fails: `np.linspace(-5.,5.,100.)` (model.py:2419) needs an integer number of points (`C120_create`).
- `run` changes the working directory and returns to it only if nothing is raised (model.py:2491-2530; not modelled).
- If the iteration of the solver does not converge (a warning, model.py:1411-1415), more of a fraction may be taken from the bed than the top layer holds, and its mass becomes negative (`C122_unconverged_negative`).
- The loop over the groundwater steps interpolates tide and waves to the time of each of them (hydro.py:260) and leaves the last in the state: with groundwater, mixing, moisture and the wet bed reset use the water level of the end of the time step, without groundwater that of its start (`C123_late`).
- With groundwater, a transect that is entirely dry, dry from its second cell, or entirely under water, raises `ValueError` in `Boussinesq`: the index of the shoreline is 0 or -1 and the slices have different lengths (hydro.py:263, 460-464; `C123_no_shoreline_fails`).
- `s['gw_prev'] = s['gw']` (hydro.py:254) keeps a reference, and `Boussinesq` sets boundary values in that array, so the saved level is not the groundwater of the previous step at the shoreline, in the last three cells and in the seepage face (`C124_shoreline`).
- With `threshold_file` the thresholds of the fractions alone, `s['uthf']`, keep their initial value zero (bed.py:116, threshold.py:77-105), so `Cuf` is positive wherever the wind blows and the solver puts sand into the air below the threshold; no bed is lowered for it, so the sand comes from nothing (`C127_threshold_file_creates_sand`). The same mechanism works over an exposed non-erodible layer, where `uth` is infinite and `uthf` is not (`sand_from_nothing`).
- The saturation `S` in the right-hand side of the solver (model.py:1319-1322) may exceed one; the weight `1 - S` of `Cuf` is then negative. This does not matter where `Cuf` equals `Cu`, which is everywhere except over an exposed non-erodible layer (there `S` is zero) and with a threshold file.
- C129: with `method_grainspeed = duran` grains below the threshold do not stand still: on a flat bed their velocity points against the wind (about 1.8 m/s for grains of 225 micrometres), aeolis/transport.py:177-187, so that sand still in the air is advected upwind. If the threshold for the grain size is zero (thresholds from a file, or the threshold process switched off) the speed is not a number outside of separation bubbles. The comment "set the grain velocity to zero inside the separation bubble" (line 192) disagrees with the code, which sets 0.1 m/s.
- C130: `apply_mask` changes its argument in place (utils.py:313-316), so masks act again in every call on waves delivered by another model (hydro.py:139-140): with `wave_mask` of a half they are halved in every time step and in every groundwater step until the other model writes them anew; the same holds for the setup with a runup mask (hydro.py:172), which is never computed then. A dry valley behind a dune is flooded to the level of the nearest wet cell (hydro.py:88-94, 209-211; example). With `process_tide` off, delivered water levels are overwritten (hydro.py:106, 209).
- C116, C131: if a cell receives more sand in a step than its top layer holds, nothing of it is added to the bed level (bed.py:309-318 with the second case of `prevent_negative_mass`): `C36_bed_level_any` states the rule and `C116_step_any` the exact balance with this loss; it can never create sand.
- C49, C116, C131, C135: on a transect (`ny = 0`) the diagonal of the matrix holds the alongshore terms `|un| * dsdn` although there are no neighbours to receive the sand (model.py:1206, 1295-1300), so with oblique wind a transect loses `dt * ds * |un| * Ct` per cell and step; the balances contain this loss as `aside` (`sideways` for the whole chain).
- Vegetation and fences after Okin: the reduced shear velocity is never below 0.01 m/s (vegetation.py:253-254 and the same in fences.py), so for very weak wind the reduced shear velocity exceeds the undisturbed one; this stays below the threshold of any natural grain but makes `u*^3 / u` unbounded for wind speeds near zero.
- Logged `maxdrop` (model.py:752 and the same in the other schemes): `self.l = self.s.copy()` (model.py:270) is a shallow copy and `interpolate` writes the wind speed in place (wind.py:117), so that for nonnegative speeds the logged drop of the wind speed is always zero.
- Explicit time steps (`set_timestep`) apart, a call of `update` below -1 second moves the clock forward by its size without computing anything (model.py:292-294 and `set_timestep`), so the clock never runs back (`C137_clock`).
- C90: when the runup covers the whole transect (overwash), no cell is above the total water level and `runup_ix = np.argmax(..) - 1` is -1, the last cell (hydro.py:267); the infiltration then decreases linearly over all cells from three times the rate at the first one (hydro.py:469-481, `C90_overwash`).
- C133: with groundwater the meteorological conditions of a time step are those of its last groundwater step (hydro.py:258-260 interpolate the forcing again with the advanced time).
- C137: `process_salt` works only with `method_moist_process = surf_moisture` and a meteorological file; every other call of `update` raises an exception (`C137_salt_fails`).
- C133: on transects the flow separation (wind.py:365) and the lateral expansion of vegetation (vegetation.py:109) use the parameter `dx` of the configuration, 1 m by default (constants.py:206), not the distance of the cells of the grid.
- C139: `s['zne'][:,:] = p['ne_file']` (bed.py:74) stores NaN when no file for the non-erodible layer is given, which is the default; both comparisons with `grad_h_nonerod` (avalanching.py:137-143) are then false and `process_avalanche` has no effect at all, except that all rounds of redistribution are computed.
- C146: with `0 < tstart < output_times` a run does not write the initial state, and the first time step ends with an AttributeError: `update` reads `self.clear` (model.py:2670), which is only set by `get_var` (model.py:2627) and hence by the first write of a plain variable (`C146_late_start`).
- C148: the seaward boundary condition is set in row `i` at `shl_ix[i]` and at `shl_ix[i-1]` (hydro.py:425), the shoreline of the previous row (of the last row for the first); the commented line below it has `shl_ix-1`, the cell before the shoreline. On a grid whose shoreline is not straight the groundwater of a row is thus set to the level of the sea also on dry land, where the shoreline of its neighbour is (`C148_neighbour`).
- C146, C147: with `process_groundwater` a run whose bed file has a row that begins above the set-up level, or that is nowhere above it, ends with an exception in its first time step (`C146_no_shoreline_fails`, `C147_no_shoreline_fails`): the shoreline is looked for in every row (hydro.py:263) and its slices fail without one.
- C113: where two separation bubbles overlap, the slope with which the second leaves its brink is damped by factors that depend on the number of the bubble in the loop (wind.py:454,481-486: the loop variable `k` replaces the array of wave numbers), so that the same two bubbles give another surface behind a third (`C113_two`).
- C128: with the default `max_iter = 1000`, `max_error = 1e-6` and `T = 1` s, time steps of an hour let the iteration of the solver end at its limit where the bed does not hold what the wind can pick up (model.py:1315-1407): every correction lowers the weight by the factor `1 - 1/(1 + dt)` only. From an empty bed seven tenths of the capacity and more are then picked up after 1000 iterations (`C128_limit_reached`, with its example); the model logs a warning. `C128_converges` gives a bound below which the limit is never reached.
- **Moisture formulation `cornelis`** (`threshold.py:225-227`): the weight of the grains `(ρg-ρa)/ρa g d` multiplies the cohesion only, because a parenthesis closes late; the remaining part `0.013 (1 + w)` is not a velocity squared, and for sand in air the threshold is below the balance of moments (`C56_cornelis`).
- C154: with oblique wind a transect (`ny = 0`) has lower concentrations than the rows of a planar grid with the same inputs, because of the alongshore term on the diagonal (model.py:1206; `C154_transect_loses`; 4/5 and 24/25 instead of 4/3 and 16/9 in the example `C154_transect_differs`).
- C159: a cell in which the grains stand still counts as one with transport from the sea (`us >= 0`, model.py:1184): it takes sand from its seaward neighbour and none from the landward one, even if that moves seaward. The mirror symmetry of `C159_reversed` is therefore stated for velocities other than zero.
- C100: the solvers `pieter` and `steadystatepieter` accept lateral boundaries of kind `gradient` on a transect when they build the matrix, but end with an IndexError at the right-hand side (model.py:1730, `ds[-2,:]`; `C100_gradient_rows`).
- C160: results depend on the datum of the levels with sand fences (a fence is removed where its height above zero, not above the bed, falls below 0.1 m: `C160_fence_depends`), with groundwater (`C160_groundwater_depends`), with flow separation (the separation surface is cut at zero, C113), with the grain speed of Durán (slopes of a separation surface that is zero without separation), without tide (still water at zero) and without runup (the total water level keeps its initial value zero). `C160_program` and `C160_planar_program` hold without these; on planar grids shear over the topography depends on the datum as well (`C110_datum`), and is excluded.
- C161: a simulation that does not start at time zero treats its first step differently: the initial weights of the solver are set for `t == 0` only (model.py:1111, `C161_time_zero`), as are the scanning curves of the moisture (hydro.py:356) and the first output record (model.py:2787, see C146).

## 6. Axioms of each theorem

`#print axioms` on every theorem of the manifest:

* `Classical.choice`, `Quot.sound`, `propext`: 700 theorems (all that are not listed below).
* `Quot.sound`, `propext`: 23 theorems: `C05_missing`, `C06_arrays`, `C160_same_run`, `C117_record`, `C08_columns`, `C10_empty_series_fails`, `C119_line_form`, `C119_last_line_counts`, `C26_run_window`, `C26_reading_discards`, `C27_steps_succeed_partial`, `C27_first_step_fails`, `C29_earlier_records_kept`, `C29_unknown_variable`, `C103_needs`, `C103_restart_never_loads`, `C121_counters`, `C100_gradient_columns`, `C107_first_step`, `C12_exact`, `C13_mask_formula`, `C13_mask_special`, `C13_masks_compose`.
* `propext`: 6 theorems: `C03_comments`, `C119_line`, `C119_tag_hides_units`, `C31_plain_name`, `C105_callback_choice`, `C120_start_again`.
* no axioms: 2 theorems: `C07_no_file`, `C19_unique_dimensions`.

No theorem depends on any other axiom.

## 7. Code modelled

Per module: functions with the model file that cites lines of them. A function counts as modelled if a definition cites lines of its body; what is simplified stands in the comment of the definition. Functions not listed are not modelled.

* `avalanching.py`: `angele_of_repose` (Avalanche), `avalanche` (Avalanche, Full, Planar, State), `calc_gradients` (Avalanche).
* `bed.py`: `initialize` (Arrays, Avalanche, Bed, PlanarProgram, Program, Runner), `mixtoplayer` (Bed, SandStep), `wet_bed_reset` (Bed), `update` (Bed, BedGrid, SandStep), `prevent_negative_mass` (Bed, BedGrid), `average_change` (Bed, BedGrid), `arrange_layers` (Bed, BedGrid).
* `erosion.py`: `run_ph12` (Erosion, Full, Planar).
* `fences.py`: `initialize` (Full, Lee, Planar, PlanarProgram, Program), `update_fences` (Full, Lee, Planar), `update_fence_height` (Full, Lee, Planar), `fence_shear2d` (Fence2d, Planar), `initialize_computational_grid` (Fence2d, Planar), `set_computational_grid` (Fence2d, Planar), `calc_fence_shear` (Fence2d, Planar), `populate_computational_grid` (Fence2d, Planar), `compute_fenceshear` (Fence2d, Planar), `get_exact_grid` (Fence2d, Planar, Resample), `rotate` (Planar, Rotate), `interpolate` (Planar, Resample), `fence_shear1d` (Full, Lee, Planar).
* `gridparams.py`: `initialize` (Arrays, Full, Grid, PlanarProgram, Program).
* `hydro.py`: `interpolate` (Coupled, Full, Hydro, HydroStep, Planar, PlanarGround), `update` (Coupled, Full, Groundwater, HydroStep, Moisture, Planar, PlanarGround), `Boussinesq` (Groundwater, HydroStep, PlanarGround), `runup_overheight_distr` (Groundwater, PlanarGround), `hdelta` (Moisture), `SWR_curve` (Moisture), `evaporation` (Moisture), `vaporation_pressure_slope` (Moisture), `saturation_pressure` (Moisture), `calc_runup_stockdon` (Hydro).
* `inout.py`: `read_configfile` (Config, Session), `write_configfile` (Config, Session), `check_configuration` (Arrays, Config), `parse_value` (Arrays, Config), `backup` (Config), `get_backupfilename` (Config).
* `model.py`: `ModelState.__init__` (State), `ModelState.__setitem__` (PyDict, State), `ModelState.set_mutable` (State), `ModelState.set_immutable` (State), `AeoLiS.__init__` (Output, Run, State), `AeoLiS.initialize` (Arrays, PlanarProgram, Program, Session, State), `AeoLiS.update` (Coupled, Full, HydroStep, Planar, PlanarGround, PlanarProgram, Program, PyDict, Run, Runner, Sand, SandStep, SolverFV, State, Vegetation, Whole), `AeoLiS.get_current_time` (State), `AeoLiS.get_end_time` (State), `AeoLiS.get_start_time` (State), `AeoLiS.get_var` (State), `AeoLiS.get_var_count` (PyDict, State), `AeoLiS.get_var_name` (PyDict, State), `AeoLiS.get_var_rank` (State), `AeoLiS.get_var_shape` (State), `AeoLiS.get_var_type` (State), `AeoLiS.inq_compound` (State), `AeoLiS.inq_compound_field` (State), `AeoLiS.set_var` (State), `AeoLiS.set_var_index` (State), `AeoLiS.set_var_slice` (State), `AeoLiS.set_timestep` (Full, Planar, Run), `AeoLiS.grid_rotate` (Full, Planar, PlanarProgram, Rotate, Run, State), `AeoLiS.euler_forward` (SolverFV), `AeoLiS.euler_backward` (SolverFV), `AeoLiS.crank_nicolson` (SolverFV), `AeoLiS.solve_steadystate` (Solver, SolverSteady), `AeoLiS.solve` (Planar, Sand, SandStep, Solver, Whole), `AeoLiS.solve_steadystatepieter` (SolverFV), `AeoLiS.solve_pieter` (SolverFV), `AeoLiS.get_count` (Session), `AeoLiS._count` (Session), `AeoLiS._dims2shape` (State), `AeoLiS.dimensions` (State), `AeoLiSRunner.__init__` (Output, Runner, Session), `AeoLiSRunner.run` (Output, PlanarProgram, Program, Run, Runner, SandStep, Session, Whole), `AeoLiSRunner.set_configfile` (Session), `AeoLiSRunner.set_params` (Session), `AeoLiSRunner.get_statistic` (Output), `AeoLiSRunner.get_var` (Output), `AeoLiSRunner.initialize` (Output), `AeoLiSRunner.update` (Output, Runner), `AeoLiSRunner.write_params` (Output, Session), `AeoLiSRunner.output_init` (Output), `AeoLiSRunner.output_clear` (Output), `AeoLiSRunner.output_update` (Output), `AeoLiSRunner.output_write` (Output, Runner), `AeoLiSRunner.load_hotstartfiles` (Runner), `AeoLiSRunner.load_restartfile` (Runner), `AeoLiSRunner.parse_callback` (Runner), `AeoLiSRunner.print_progress` (Runner), `AeoLiSRunner.print_stats` (Runner), `WindGenerator.__init__` (Generator), `WindGenerator.__getitem__` (Generator), `WindGenerator.generate` (Generator), `WindGenerator.update` (Generator), `WindGenerator.get_time_series` (Generator), `WindGenerator.write_time_series` (Generator), `WindGenerator.plot` (Generator), `WindGenerator.hist` (Generator), `WindGenerator.weibullpdf` (Generator), `WindGenerator.matmult4` (Generator).
* `netcdf.py`: `initialize` (Metadata, Output), `append` (Output), `set_bounds` (Output), `dump` (Arrays), `parse_metadata` (Metadata).
* `shear.py`: `WindShear.__init__` (Shear), `WindShear.__call__` (Shear), `WindShear.set_computational_grid` (Shear), `WindShear.separation` (Shear), `WindShear.compute_shear` (Shear), `WindShear.separation_shear` (Shear), `WindShear.maxDiff` (Shear), `WindShear.filter_highfrequenies` (Shear), `WindShear.get_shear` (Shear), `WindShear.add_shear` (Shear), `WindShear.get_separation` (Shear), `WindShear.plot` (Shear), `WindShear.get_exact_grid` (Resample, Shear), `WindShear.get_borders` (Shear), `WindShear.rotate` (Rotate, Shear), `WindShear.interpolate` (Resample, Shear).
* `threshold.py`: `compute` (Threshold, Whole, XReal), `compute_grainsize` (Threshold, XReal), `compute_bedslope` (XReal), `compute_moisture` (PyStr, Threshold, XReal), `compute_salt` (Threshold, XReal), `compute_sheltering` (Threshold, XReal), `non_erodible` (Threshold, XReal).
* `transport.py`: `duran_grainspeed` (Duran, Full, Planar, Transport), `constant_grainspeed` (Transport), `equilibrium` (Full, Planar, PyStr, Transport, Whole, XReal), `compute_weights` (Weights), `renormalize_weights` (Weights).
* `utils.py`: `makeiterable` (Config), `isarray` (Config), `interp_array` (Interp), `interp_circular` (Interp), `normalize` (Utils), `prevent_tiny_negatives` (Utils), `print_value` (Config), `apply_mask` (Coupled, Threshold, Utils), `rotate` (Rotate), `sc_kv` (Shear), `calc_grain_size` (Interp), `calc_mean_grain_size` (Utils).
* `vegetation.py`: `initialize` (Full, Planar, PlanarProgram, Program, Vegetation), `vegshear` (Full, Lee, Planar, Vegetation), `germinate` (Full, Planar, Vegetation), `grow` (Full, Planar, Vegetation), `vegshear_okin` (Full, Lee, Planar), `vegshear_raupach` (Full, Lee, Planar).
* `wind.py`: `initialize` (Full, Planar, PlanarProgram, Program, Resample, Wind), `interpolate` (Full, Planar, Wind), `calculate_z0` (Full, Planar, PlanarProgram, Wind), `shear` (Full, Planar, Wind), `velocity_stress` (Full, Wind), `stress_velocity` (Full, Wind), `compute_shear1d` (Full, Wind), `separation1d` (Full, Separation1d, Wind).

Not modelled: `__init__.py`: `Logger._log`, `Logger.log_and_raise`; `console.py`: `run`, `wind`, `examples`, `print_license`, `start_aeolis_app`, `start_aeolis_wind_app`; `console_debug.py`: `aeolis_debug`; `inout.py`: `visualize_grid`, `visualize_timeseries`, `visualize_spatial`; `model.py`: `StreamFormatter.format`, `AeoLiS.__enter__`, `AeoLiS.__exit__`, `AeoLiS.finalize`, `AeoLiSRunner.dump_restartfile`, `AeoLiSRunner.print_params`; `run_console.py`: `main`; `utils.py`: `isiterable`, `format_log`. Plotting, logging, the command line and module-level tables other than the defaults and state names used in theorems are not modelled either.

