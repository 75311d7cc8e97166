# Formal model of RDycore: design

The code under study is `/repo` (RDycore, C, PETSc + libCEED).  It was read as
text only; it was never built or run here.  The model is Lean 4 (4.33.0) with
individual Mathlib modules, in `lean/Verif`.

## Layout

* `Verif/Model/*.lean`  – executable-style definitions, one file per area, every
  definition citing the `/repo` file and lines it models.
* `Verif/Lemmas/*.lean` – helper lemmas (nothing here is a claim).
* `Verif/Props/*.lean`  – specifications (small, independent of the model's
  helpers) and the property theorems; each with an `example` that satisfies its
  hypotheses.  Theorems whose name ends in `_partial` prove less than the English
  property; theorems whose name contains `_violated` prove that the code, as
  modelled, breaks the English property, with a concrete witness.

## Conventions

* `PetscReal` is modelled by `ℝ` (or `ℚ` where a computable witness is wanted).
  Rounding, overflow and NaN propagation are not modelled; a division whose
  denominator can be zero in the C code is modelled as `Option` (`none` = the C
  result is not a number / undefined) wherever the property depends on it.
* `PetscInt` is modelled by `ℕ`/`ℤ` without overflow.  Integer division or
  modulus by zero, out-of-range table access, and calls through a null or dangling
  pointer are a distinct outcome (`none` / `UB`).
* A PETSc `Vec` is a function from indices or a `List`; MPI reductions are folds;
  a collective over `p` processes is a list of per-process data.
* Pointers, memory management, I/O libraries (HDF5, YAML parser), MPI transport,
  DMPlex and the TS integrator are outside the model; where a property needs one
  of them its assumed contract is stated as a parameter or a hypothesis.

## Trusted base

* Lean's kernel and the three standard axioms `propext`, `Classical.choice`,
  `Quot.sound` (listed per theorem at the end of this file; no other axiom, no
  `sorry`, no `native_decide`/`bv_decide`).
* The reading of the C code: nothing ties the model to the code mechanically.
  Every definition of the model cites the lines it was read from.
* The contracts of the libraries, which appear as definitions or hypotheses:
  * MPI reductions combine the processes' values in an arbitrary tree;
    process-wise collectives are lists or functions of the process number.
  * `TSSolve` (explicit Euler, fixed step, MATCHSTEP) calls the monitors before
    each step and after the last, and sets `U' = U + dt * rhs(U)` on owned cells,
    with ghost cells holding their owners' current values.
  * libCEED applies each Q-function once to each listed element and adds the
    results at the offsets of the element restriction, for the active output and
    for passive output vectors alike (`CeedOperatorApplyAdd`);
    `CeedOperatorApply` sets the outputs to zero first.
  * `DMLocalToGlobal(ADD_VALUES)` gives a global entry the sum of all local
    entries that represent it.
  * `DMPlexTransform` refinement splits each coarse cell into a list of fine cells;
    these lists partition the fine cells.
  * `mktime` normalises a broken-down time; `qsort` sorts; `ISDifference` and
    `ISIntersect` are difference and intersection.
  * muParser evaluates an expression that is empty or cannot be parsed to 0, and
    reports nothing when no error handler is installed.

## Properties: what is modelled and how it is proved

| id | model | proof |
|----|-------|-------|
| C01 | `ConvertTimeToSeconds/FromSeconds` as a 7-way case split incl. the unsupported case (which returns the PETSc error code as a time) | case analysis + `field_simp`; composition law |
| C02 | stored interval + unit; get/set | corollary of C01; the missing positivity check is a `_violated` theorem |
| C03 | `RDyAdvance` as `time += interval` (TS contract: MATCHSTEP lands exactly on max time), `RDyFinished` with the 1e-13 tolerance, driver loop as fuel-free least number of calls | induction over calls, Archimedean argument for termination |
| C04 | the adaptive branch as a function of (dt, courant, interval) | invariant over any list of Courant measurements |
| C05 | `GenerateIndexedFilename` on character lists, digits via `Nat.toDigits`-like function with padding | decimal representation injective and order-reflecting |
| C06 | batch/dataset arithmetic of `DetermineOutputFile`/`WriteXDMFHDF5Data`, `none` for division by zero | arithmetic; file-system-as-list refinement: all datasets are retrievable; time-interval-only config is a `_violated` witness |
| C07 | the two static directory caches as process state | history induction; `_violated` for the second simulation |
| C08, C09 | static shutdown table (pointer, count, capacity) as state machine with UB outcome | induction; LIFO for the first cycle; later cycles `_violated` |
| C10, C11, C12 | `SetMissingValues` + `ValidateConfig` (time part) on optional values encoded with the sentinel constants | case analysis; the never-failing count check is `_violated` |
| C13 | string tables as lists, indexing `Option` | exhaustive over the enumerators |
| C14 | `color = rank / (nproc/size)` | arithmetic |
| C15 | override loops as list updates at first match | list induction |
| C16 | the two index arrays built by the loop | loop invariant |
| C17, C18 | real geometry | `nlinarith`/`field_simp` |
| C19 | flat array writer and XDMF decoder | list induction |
| C20, C21 | face-set subtraction and ID choice loops | list induction; ID collision `_violated` |
| C22 | the assignment loop over specifications | list induction |
| C23, C24, C25 | nested assignment loops as folds over stores | list induction, `_violated` witnesses for the loops that ignore the material name, destroy the file vector, or write slot 0 |
| C26, C27, C28 | store/frame laws on flat arrays `total*e+offset+c` | index arithmetic, induction over call histories |
| C29, C30 | metadata record and format selection by substring | round-trip; `_violated` for nproc and for names containing both suffixes |
| C31–C34 | monitor-call state machines | trace induction; C31 holds with PETSc for one `RDyAdvance`; with CEED the fluxes accumulated are running sums (see C110) |
| C35 | diagnostics record and reduction | fold lemmas |
| C36–C40 | Roe flux over ℝ | algebra |
| C41, C42 | edges as list with left/right/ownership, cell accumulation as fold | sum exchange |
| C43 | HR flux per edge, closed polygon identity | algebra + sum over edges |
| C44, C45 | friction formulas | algebra/inequalities |
| C46–C48 | tracer flux of both backends | algebra; `_violated` for the CEED right-concentration guard |
| C49, C50 | limiters, LS gradients | inequalities, linear algebra |
| C51 | four-branch function | algebra incl. cube/square roots |
| C52–C55 | forcing lookups | list induction, state machines |
| C56 | composite operator as list, fields as association list | induction |
| C57, C58 | counting sort, prolongation/restriction | induction, sums |
| C59 | resource state machine | induction |
| C60 | signed shoelace formula against the projected area | algebra |
| C61 | supercritical states on both sides | algebra on the Roe coefficients |
| C62 | reported wave speed against the speeds in the flux | inequalities; `_violated` with the entropy fix |
| C63 | the critical-outflow boundary states | sign analysis of the mass flux |
| C64 | tracer update of one cell by upwind fluxes under a CFL condition | convex combination; `_violated` for Roe |
| C65 | tracer part of the right-hand side summed over all processes | sum exchange as in C41 |
| C66 | erosion and deposition in a cell | algebra; `_violated` for erosion below the critical stress |
| C67 | index used to read the roughness | C16 numbering; `_violated` when a ghost precedes an owned cell |
| C68, C69 | option handling as decision functions over process state | case analysis |
| C70 | Bradford-Sanders correction at an edge | algebra; `_violated` on an uneven bed |
| C71, C72 | datasets applied to regions and boundaries | list induction |
| C73 | a problem on an undivided mesh, and what it means to divide it (`Divides`, `CeedDivides`); one Euler step on each process | per-cell sums over edges do not depend on the division; induction over the steps; for CEED only if owned cells come first in the local numbering, otherwise `_violated` |
| C74 | depth after an Euler step of the undivided problem; Courant number of an edge from its wave speed, length, area and time step | sign of the Roe mass flux at a dry side for any step; bound by the wave speed for water at rest (`_partial`); `_violated`: for every bound on the Courant number a two-cell state with positive depths whose successor has a negative depth and no successor itself |
| C75 | boundary edge lists as seen by getters, operators and flux extraction (`BndMesh`) | list indices; for CEED fluxes an equivalence: right for all fluxes iff owned edges precede the others (`_partial`), with a `_violated` witness |
| C76 | orthogonal maps of the plane (`Ortho`) acting on states, fluxes, meshes, coordinates and gradients | equivariance of every function of the right-hand sides (both backends), of normals, slopes and least-squares gradients; `_partial` for the second-order scheme without a limiter and `_violated` with one |
| C77 | a cell surrounded by its own state (`UniformAround`), Manning's equation (`ManningFlow`) | closure of the cell makes the fluxes cancel; steady exactly if Manning's equation holds, for both friction methods |
| C78 | an argument is the registered field of that name with enough components (`Fits`) | interior inputs, sources, flow-only boundaries: all configurations; tracer boundaries and hydrostatic reconstruction: exact characterisation of the mismatches |
| C79 | the largest Courant number of the wet edges (`LargestCourant`) | invariant over evaluations for the time steps in the contexts; the vectors of Courant numbers are added to at every evaluation (`CeedOperatorApplyAdd`), so the number is the largest of sums; first evaluation, first order, without HR: right; HR and second order: boundary edges only |
| C80 | entries used vs entries present | arithmetic; exact condition |
| C81 | independent table of fields with name and place (`OField`) | names injective; membership of the write loops; duplicate-free; salinity and temperature cannot be written |
| C82 | `velOf` | written values are those of the last right-hand side: the step before with forward Euler (exact), 0 at the first output, 0 always for sediment with hydrostatic reconstruction |
| C83 | concentrations, global tracer mass, still water, extremes (as for C46, C64, C65, C43) | invariants over edges, telescoping, donor cell bounds; the corrections touch momentum only; CEED: equal where both reconstructed depths are wet, NaN below a waterfall, `upwind` ignored |
| C84 | forgetting tracers (`flowOf`, `withFlow`) | simulation between the tracer and the flow right-hand sides; differs only through `h_anuga_regular` at boundaries and the index of roughness |
| C85 | the undivided mesh (`MProblem`), divisions (`MDivides`), flux between two states | gradients of owned cells are sums over all their edges; communicated values of ghost cells; sums over edges by owner; orientation by antisymmetry of the flux; CEED: violated if a ghost cell precedes an owned one; the warning counts ghost cells |
| C86 | the next hour of a calendar date (own leap-year rule), decimal digits | seconds of a date are strictly monotone; inverse of the conversion; induction over files; violated: invalid start dates are normalised silently, local time with daylight saving, time stamps of output use the calendar of another month and year |
| C87 | what the options describe (`Asks`) and what is incomplete | equivalence for the sequence of stages; violated: directory without date, lists longer than 20, both map options, maps for boundaries |
| C88 | files as headers and rows, nearest points by squared distance, pixels, division among processes | offsets in concatenated rows; nearest neighbour (C54); lookup in a permutation; violated: too many mesh points, stride 0, later files, short rasters, unchecked maps |
| C89 | pieces of text glued with the placeholder or its replacement; base name and directory of a path | induction over the pieces; search finds the first piece; sizes add up; violated: a replacement that contains the next pattern (latent), names with several dots, configuration files in other directories |
| C90 | the format that an option mentions; precedence | frame lemmas for each step; violated: long CGNS names, second simulation in a process |
| C91 | derivatives by Mathlib's `HasDerivAt` and `deriv`; fluxes of C36; `manning` of C44 | product rule; powers of the depth; limits of both friction terms; derivatives of the shipped expressions |
| C92 | integrals and maximum over the cells of the whole mesh; powers of the number of cells | frame lemma for regions; prefix of sorted lists; sums over a division; regression of data on a line; violated: no region with ID 1, exact results, salinity, other time units, steps that do not divide the final time, `-dt` |
| C93 | kinds of results and which of them a configuration asks for; number of monitors per kind | invariant of the list of monitors over any sequence of calls; violated: division by zero for messages, time series after a restart, refinement (also before the first step), reading a checkpoint, calls after the end |
| C94 | the clock as a value; the set of marked cells; values of a fine cell equal those of its parent | corresponding lists of regions give corresponding cells the same values (induction over regions, assignments, materials, sources); violated: `-ts_dt`, refinement without marks, short arrays of marks, values set by calls, rainfall, elevations from a file |
| C95 | number of references owned at the end of a program of pointer commands, undefined behaviour being a distinct outcome | an abstract interpreter of ownership, proved sound for the heap semantics; its states are closed under every call (finite check per configuration), then induction over the calls; violated: sediment, salinity, unused marks, BS2002 on libCEED, unfinished runs, observations, raster maps read from files |
| C96 | rows of the tables as filtered closures and stars of points; converse relations; equality of numbers iff equality of vertices | invariant of the loop that fills a row (other rows untouched), maxima over processes; sorted leaves of full length are the identity; pigeonhole for the coordinates; violated: three cells at an edge, a process without vertices, meshes read by several processes, numbers after refinement |
| C97 | equality of what the monitors are given (time, step number, solution) and of step sizes in every later call | simulation between the two runs, invariant of the forcing object; grid of step numbers for constant data; the file on disk is the last one written for its step; violated: last checkpoint with adaptive steps, checkpoints within an interval (end of the run, forcing), hourly files, time averages |
| C98 | `CompleteOptions`, `nextMinute`, `minuteFile`, `GoodFile`, `fileValue`, `Ancestor`, `Lineage`, `timesMarked`, `InBox` | invariant of the loop (date, files, chain of refinements, marks), using C58 for the product of matrices and C94 for the label; areas along a lineage shrink by 4 with each mark; violated: fewer than five numbers, directory without date, intervals other than a minute, unlimited refinement of the fixed box |
| C99 | `FitsCall`, `Holds`, `Arrives`, `counterpart`, `Faithful` | an argument for which dummy, wrapper, interface and prototype agree arrives (case analysis); induction over the arguments; the tables of all procedures are then checked by the kernel; texts by their length without blanks; violated: `RDyGetVersion` calls nothing, `RDyMMSEstimateConvergenceRates` has one argument too many, names of 1024 characters, build configuration filled with NULs, `RDyRestarted` not `PETSC_TRUE` |
| C100 | `IsManufactured` (the fields themselves at the centroid and time); elevations as values of `z`; roughness as values of `n`; which run's expressions are evaluated | the setters of C27 one after the other, each leaving the others' components alone; induction over boundaries, regions, vertices; invariant of the pool of expressions (the run set up last is alive until the end of the study); violated: 2-D coordinates, salinity and temperature sources, numbering with ghosts first, unit of time other than seconds, `-dm_refine` other than the base, use after a study, two runs side by side |
| C101 | equality with the run of C97 | the only thing the extra step leaves behind in the time stepper is its step size; it is the old one if whole steps make up the interval; induction over calls; violated: other intervals (computed example), accumulated boundary fluxes |
| C102 | specifications `NamedBy`, `FirstFor`, `IcFor`, `SourceFor` by positions in lists | decision logic of the look-ups (`find?`), loop over regions that stops at the first failure; violated: unknown tracer conditions (undefined behaviour), unchecked kind of temperature conditions, ignored regions and sources, conditions that are accepted but evaluate to 0 |
| C103 | runs of the two drivers as loops over intervals; `FSrc.OfKind` says that the driver has the kind of dataset the library has | simulation: what the library sets afterwards replaces what the driver has set (folds over cells and edges); values, maps and names by induction over the cells, points and hours; violated: 29 February, time units, far cells, maps on several processes, maps left behind, options only one of the two refuses |
| C104 | `TSame` says for which states the two kernels see the same sides; `tRun` iterates explicit steps; outflow as a sum over boundary edges | edge by edge and cell by cell congruence of the two folds (the CEED source operator reads the row that it writes: injectivity of the numbering), induction over the steps; totals by cancellation at each edge; violated: fronts, boundaries with depth 0, salinity and heat |
| C105 | `XFs.read` resolves a data item as a reader does (file beside the XMF file, group, name); `expected` lists the datasets that belong to an output; `valueE` reads a `%E` number | invariant over the outputs (files of earlier outputs survive: names by step, batch or date are distinct, the same file is only appended to, groups of different steps differ, grids are rewritten only with the same mesh); rounding to seven digits via `Int.log`; violated: restart elsewhere, outputs at other steps, equal dates, times closer than a millionth |
| C106 | a distribution is a list of lists of cells whose concatenation is a permutation; `xdmfDecode` reads the topology | look-up in a zipped permutation; `connFlat` is a monoid map, so the division of the vector does not matter; violated: order after refinement, areas with reconstruction, elevations with a file |
| C107 | `TProblem` is the undivided problem (cells by global number, edges with two sides) with `div`/`rhs` as sums over its edges; `TDivides`/`TCeedDivides` say what a process holds of it | per-cell sums of the folds, antisymmetry of the fluxes of all components, permutation of the edges of a process; CEED: edges owned once, `DMLocalToGlobal` as a double sum; violated: roughness read at the local number, fronts with CEED |
| C108 | the models without memory (`applyInterior`, `applyBoundary`, `tracerDivergence`) on the mesh that the tables describe (`meshOf`) | loop invariants over arrays with bounds: every entry that is read for an edge with two cells was written in the same evaluation; the matrix of the solver is clean outside the entries assigned for every edge |
| C109 | `interior2R` of `SecondOrder.lean` on the mesh that the tables describe (`PProc.mproc`), and with C85 `MProblem.interior` of the undivided mesh | loop invariants in which the counter of owned edges is the number of owned edges before (`GTables.pos`); rows of flat arrays; what a local cell receives was written by the owner of the cell |
| C110 | `ceedDivergence` of `Ceed.lean` on the mesh that the tables describe (`ceedMeshOf`), the flux of a boundary edge (`bndFluxC`), rows by number of owned edges before | invariant of the loops that count owned edges; `OpsReady` over all evaluations with the contents of the flux vectors; violated: the flux vectors are sums over evaluations (`CeedOperatorApplyAdd`), so the series adds up sums of sums; rows are packed by owned edges and read by edge number |
| C111 | right-hand side of a cell from values under its local and its owned number (`SCells.rhsOf`, `primOf`); `ceedRhs` and `rhs` of the models that treat cells one by one; `GProblem.divCeed` of the undivided problem | invariant of the loops that count owned cells (`SourceReady`); `CeedOperatorApply` forgets the contents of all outputs; chained with C110, C48 and C73; partial where these are (states in which the backends differ, ghost cells before owned cells) |
| C112 | mean of corner elevations (`cornerMean`); `rhs` of the model that treats edges and cells one by one, on `rhsMeshOf`; `velocities`; `restState` | invariants of the loops over edges (gather, reconstruct, add) and cells; entries of arrays are folds of the terms of single edges (`hrTerm`, `srcTerm`); still water via C43 |
| C113 | `ceedDivergence`, `ceedRhs` of the model that treats edges and cells one by one, with mean corner elevations (`cornerMean`); `restState`; Courant number of an edge (`hrCourantOf`) | invariants of the loops that fill geometric factors and offsets; composite of scatter-adds as folds; still water: the divergence is read off C43/C48 at time step 0, then friction acts on it |
| C114 | `ceedDivergence2R` (edges one by one, for which C85 is stated), `MProblem.divCeed` (undivided mesh), `cellCourant` | each creation loop as an invariant over owned edges; offsets `6 j`, `6 j + 3` against the packed order of the reconstruction (`pos_getD`); Q-function at a point; scatter as folds; evaluation on all processes through the exchange lemmas of C109; induction over evaluations |
| C115 | `globalCells`, `globalStates` (owned cells and their states, process after process), `siteRows`, `observedRows` (the lines a reader expects) | scatter of pairs with distinct targets; block index sets; the loop over owned cells fills its part in the order of the local numbering; induction over the calls. Which cell a number selects is decided by PETSc's global numbering, so that it changes with the division of the mesh (`C115_numbering_violated`). |
| C116 | `ownEdges` (the boundary edges of the process), `packedRow`, `fluxTo`, `edgeCourantTOf`, `bndCourantTOf`, `WetOn` | as C110 with `3 + nt` components; the outputs that a Q-function does not write are a parameter of the model and shown not to reach the divergences. Walls: the fluxes recorded are whatever memory holds; a Dirichlet edge dry on both sides writes outside its output; six tracers do not fit in `hci`. |
| C117 | `tRhsOf` (flux divergence, source, gravity, `frictionTerm`, `netErosion`), `tPrimOf` (depth, velocities, concentrations) | as C111 with `3 + nt` components, then the Q-function's arithmetic shown equal to the formulas; the whole right-hand side from C116 and C104. Negations: six tracers, no erosion or deposition with `arkimex`, fresh still water loses salt. |
| C118 | `givenSource`, `givenManning` (value of the last call that concerns the cell, `lastGiven`), `Numbered`, `ApiCall.WellFormed` | invariant over the sequence: the vectors hold the given values by owned number (write-back of one component, C26; the numbering is injective), the operators are in a state that C111, C117 or C112 speaks of; then those theorems. |
| C119 | `BndCall.gives`, `lastValue` (value of the last call that concerns the component), `givenBnds`, `givenTBnds`, `BndCall.Correct` | invariant over the sequence: the operators differ from freshly created ones only in the boundary vectors, which hold the last values (two loops with a stride: each index is written once), and the memories are in a state that C110, C116, C112 or C108 speaks of; then those theorems. Violated for sediment at a wall: CEED refuses the call, PETSc ignores the values. |
| C120 | `AsAsked` (settings used = settings given), `Documented`, `CeedCan`, `PetscCan`, `PetscSetupRefuses` (tables of combinations) | closed form of both starts: each dispatch is a function of the settings, a list of boundaries is accepted iff all its members are (induction on the list); then case analysis. The four silent substitutions are theorems of the form: if it runs, then not as asked. |
| C121 | `tracerRhs` on the mesh that the tables describe, `cornerMean`, `OutputOf` (what a cell leaves for output) | loop invariants of the gather, solve, add and source loops over arrays (as for C112, with rows of `3 + nt` numbers); every entry is a fold over edges and cells, equal to that of the one-by-one model; the undefined read: a loop one of whose steps is undefined in every state is undefined. |
| C122 | `enabledAfter`, `madeAs` (functions of the history of calls alone), `NoSwitch` | invariant over runs of calls: the state of the process follows the specification functions; the CEED context is that of C59; exact condition for the next call to be undefined; induction on prefixes for histories without a switch. |
| C123 | `withDirs` (directories added where nothing was), `under`, `Placeable`, `PlainName` | lemmas on splitting paths at slashes; one call of `mkdir` as a case distinction; induction over the members' calls in any order; permutation of the members leaves the result. |
| C124 | `Ortho.tprim`, `Ortho.tcons`, `Ortho.comps` (depth and tracers stay, momentum turns) | the 3 + n components of the flux: the first three by C76, in the others the column of the transverse wave vanishes; induction over the loops of edges and cells; friction and erosion depend on the speed only. |
| C125 | `Part.Wf` (what PETSc guarantees of a part), `Part.Touches`, `Part.Covered` | maximum over processes positive iff one is; an owned edge of the boundary is in a face set or counted as unassigned; case distinction over regions and owned cells; pigeonhole over processes. |
| C126 | `IsLowerMedian` (by counting, with uniqueness), bounds on all entries | counting in the two parts of a sorted list; sorting as a permutation; uniqueness of sorted permutations; C125 for runs that start. |
| C127 | `Origin.Given`, `FromEither`; texts and parsers compared entry by entry | induction over replacements: each entry is of the base or of the member; case distinction over file and expression. |
| C128 | `OnlyAt`, `NoDirichlet`, `AtMostOne` (positions of Dirichlet boundaries on a process) | the maximum of the positions is one of them and bounds all (induction over processes); case distinction over the checks; C72 for one process. |
## Source files the model cites

| file in `/repo` | model files |
|---|---|
| `driver/amr.c` | AmrDriver, Monitors |
| `driver/main.F90` | FDriver |
| `driver/main.c` | Advance, FDriver, Monitors, Preload, Restart |
| `include/private/config.h` | PetscOp |
| `include/private/physics_ceed.h` | Roe |
| `include/private/rdyboundaryimpl.h` | Boundaries, TimeSeries |
| `include/private/rdyconditionimpl.h` | Boundaries, Conditions, Data, TimeSeries |
| `include/private/rdyconfigimpl.h` | Advance, Boundaries, CeedFields, Conditions, Config, Data, Dispatch, Ensemble, Eta, Fields, Members, Monitors, Muscl, Operator, Options, Output, Time, TimeSeries, Tracer |
| `include/private/rdycoreimpl.h` | Advance, Amr, AmrRun, Checkpoint, Monitors, Observations, Restart, TimeSeries |
| `include/private/rdyforcingimpl.h` | Calendar, Forcing, ForcingOptions |
| `include/private/rdymeshimpl.h` | Batched, Boundaries, BoundaryIO, CeedMuscl, CeedOp, Mesh, Muscl, Observations, Operator, Packed, PetscRhs, SecondOrder, TimeSeries, Xdmf |
| `include/private/rdymmsconfigimpl.h` | Mms, MmsRun |
| `include/private/rdyoperatorimpl.h` | ApiRun, BndRun, CeedMuscl, Courant, FDriver, PetscOp, Simulations |
| `include/private/rdyoutputimpl.h` | TimeSeries |
| `include/private/rdyregionimpl.h` | Amr, AmrRun, Fields |
| `include/rdycore.h` | Boundaries, Config, Fortran, Monitors, Roe, Time |
| `src/ceed.c` | Lifecycle, Simulations |
| `src/checkpoint.c` | Checkpoint, Directories, Monitors, Output, Restart |
| `src/ensemble.c` | Ensemble |
| `src/f90-mod/rdycore.F90` | FDriver, Fortran |
| `src/forcing/rdyforcing.c` | AmrRun, BcFile, Calendar, FDriver, Forcing, ForcingData, ForcingOptions, Restart |
| `src/forcing/rdyforcing_dataset.c` | Calendar, Forcing, ForcingData, Restart |
| `src/forcing/rdyforcing_map.c` | Forcing, ForcingData |
| `src/operator.c` | AmrRun, ApiRun, Batched, BndRun, BoundaryIO, Ceed, CeedFields, CeedMuscl, CeedOp, CeedSource, CeedTOp, CeedTSource, CeedTracer, Courant, Data, Dispatch, Eta, FDriver, Lifecycle, Muscl, Operator, OutputFields, Parts, PetscRhs, PetscTRhs, SecondOrder, Simulations, TimeSeries, TracerHR |
| `src/operator_fluxes_ceed.c` | BndRun, BoundaryIO, Ceed, CeedFields, CeedHR, CeedMuscl, CeedOp, CeedTOp, CeedTracer, Dispatch, Eta, Muscl, Packed, SecondOrder, TimeSeries |
| `src/operator_fluxes_hydro_recon_ceed.c` | Ceed, CeedFields, CeedHR, CeedTracer, Dispatch, TracerHR |
| `src/operator_fluxes_petsc.c` | Batched, CeedTracer, Dispatch, PetscRhs, PetscTRhs |
| `src/operator_sources_ceed.c` | ApiRun, Ceed, CeedFields, CeedSource, CeedTSource, CeedTracer, Dispatch |
| `src/operator_sources_hydro_recon_ceed.c` | CeedFields, CeedSource, CeedTSource, Dispatch |
| `src/operator_sources_petsc.c` | Dispatch, PetscRhs, PetscTRhs |
| `src/petsc_operator.c` | Batched, PetscOp |
| `src/rdyadvance.c` | Advance, AmrDriver, Calendar, Directories, FDriver, MmsRun, Monitors, Observations, Output, Preload, Restart, Time, TimeSeries, Xdmf |
| `src/rdyamr.c` | Amr, AmrDriver, AmrRun, Monitors |
| `src/rdycore.c` | Config, Fortran, Lifecycle, MmsRun, Simulations |
| `src/rdydata.c` | Amr, AmrDriver, AmrRun, ApiRun, BcFile, BndRun, BoundaryIO, Data, ForcingData, Observations |
| `src/rdydm.c` | Data, Fields, TimeSeries |
| `src/rdymesh.c` | Dispatch, Fields, Mesh, MmsRun, Packed, PartStats, Xdmf |
| `src/rdymms.c` | Mms, MmsRun |
| `src/rdysetup.c` | Advance, AmrRun, ApiRun, Batched, BcFile, BndRun, Boundaries, CeedTracer, Conditions, Config, Data, Dispatch, Eta, Fields, Members, Mms, MmsRun, Monitors, Operator, OutputFields, Packed, PartStats, Parts, PetscRhs, PetscTRhs, Preload, Restart, Simulations, Time, TimeSeries, TracerHR, Xdmf |
| `src/swe/swe_ceed.c` | CeedFields, CeedMuscl |
| `src/swe/swe_fluxes_ceed.h` | Ceed, CeedFields, CeedOp, Courant, Eta, Roe |
| `src/swe/swe_fluxes_hydro_recon_ceed.h` | Ceed, CeedFields, CeedHR |
| `src/swe/swe_muscl_fluxes_ceed.h` | CeedFields, CeedMuscl, SecondOrder |
| `src/swe/swe_petsc.c` | Batched, BoundaryIO, CeedTracer, Courant, Dispatch, Muscl, Operator, OutputFields, Packed, Parts, PetscRhs, Roe, SecondOrder, TimeSeries, Tracer |
| `src/swe/swe_roe_flux_ceed.h` | Roe |
| `src/swe/swe_roe_flux_petsc.h` | Batched, Roe, Tracer |
| `src/swe/swe_sources_ceed.h` | Ceed, CeedFields, CeedSource, OutputFields |
| `src/swe/swe_sources_hydro_recon_ceed.h` | Ceed, CeedFields, CeedSource |
| `src/swe/swe_types_petsc.h` | Batched, Roe |
| `src/swe/swe_well_balancing.h` | CeedFields, Eta |
| `src/time_series.c` | BoundaryIO, CeedOp, Monitors, Observations, TimeSeries |
| `src/tracer/tracer_ceed.c` | CeedFields |
| `src/tracer/tracer_fluxes_ceed.h` | CeedFields, CeedTOp, CeedTracer, Dispatch, Tracer |
| `src/tracer/tracer_fluxes_hydro_recon_ceed.h` | CeedFields, CeedTracer, TracerHR |
| `src/tracer/tracer_petsc.c` | Batched, CeedTracer, Courant, Dispatch, OutputFields, PetscTRhs, Tracer, TracerHR |
| `src/tracer/tracer_roe_flux_ceed.h` | CeedFields, CeedTOp, Tracer |
| `src/tracer/tracer_roe_flux_petsc.h` | Batched, CeedFields, Tracer |
| `src/tracer/tracer_sources_ceed.h` | CeedFields, CeedTSource, CeedTracer, OutputFields, Tracer |
| `src/tracer/tracer_sources_hydro_recon_ceed.h` | CeedFields, CeedTSource, CeedTracer |
| `src/tracer/tracer_types_ceed.h` | CeedFields, CeedTOp, CeedTSource |
| `src/tracer/tracer_types_petsc.h` | Batched, Tracer |
| `src/xdmf_output.c` | Output, OutputFields, TimeSeries, Xdmf |
| `src/yaml_input.c` | Calendar, CeedFields, Conditions, Config, ConfigText, Dispatch, Ensemble, Eta, Fields, Members, Mms, MmsRun, Options, Output, OutputFields, Simulations, TimeSeries |

Not every line of a cited file is modelled; the comments of the definitions give
the lines.

## What is not modelled

* Floating-point rounding, overflow of reals, and NaN after it has arisen (an
  undefined result is `none` and makes the whole step undefined).
* Parsing of YAML, HDF5/CGNS/XDMF encoding, file systems, MPI transport, PETSc
  objects and their reference counts, GPU memory.
* Mesh reading, distribution and refinement inside DMPlex.
* Implicit and higher-order time integrators (except where a property concerns the
  number of right-hand side evaluations, C31).
* The parsing of expressions of manufactured solutions (muParser: an expression is a
  function), `PetscLinearRegression` (contract: least squares) and
  most of the drivers' command lines. Of the Fortran driver (`driver/main.F90`) the
  release of data and the checks after each interval are left out.
* Second-order reconstruction with CEED together with the BS2002 scheme.
* The C library's `mktime`, `localtime_r` and `snprintf` (contracts: seconds since
  the epoch of a normalised calendar date, in UTC or with one given offset during
  summer time; zero- or blank-padded decimal digits), `PetscOptionsGet*Array` (at
  most as many entries as there is room for), `VecLoad` (fails on another length)
  and `DMPlexGlobalToNatural` (a permutation).

## Testing the theorems

Realistic bugs were put into a scratch copy of the model, one at a time, and the
project rebuilt. `seeded/LOG.jsonl` has one line per attempt: the definition, the
edit, the claim it breaks, the theorems that failed and those that were tightened
because the edit had survived. Where only a lemma failed directly, the theorems
that use it are listed too.

## Disagreements between the code and the properties

Each is a theorem with a concrete witness or a family of them. Where a `_violated`
theorem exists, the property is `partial` in the manifest, and the companion theorems
say under which condition it does hold.

* `C01_unset_roundtrip_violated`: C01: the round trip fails for an unset unit.
* `C02_nonpositive_accepted_violated`: C02, full statement refuted: `RDySetCouplingInterval` accepts and stores a non-positive interval.
* `C03_step_limit_never_finishes_violated`: C03, full statement refuted: whenever the step limit times the time step falls short of the stop time, no number of calls ever makes `RDyFinished` true (the documented "maximum number of time steps has been reached" criterion is not implemented), so the driver loop cannot end normally.
* `C03_stop_not_multiple_of_dt_violated`: C03 witness: `stop: 10 s, time_step: 3 s` (so that `stop_n = (int)(10/3) = 3` is derived by validation) never finishes.
* `C04_interval_bound_violated`: C04: a step larger than a (later shortened) coupling interval is not reduced to it in the decreasing branch.
* `C04_shortened_last_step_violated`: C04, full statement refuted: the Courant number fed back is the one of the *last* step of the interval, which `MATCHSTEP` may have shortened, while the factor is applied to the full time step. With interval 10 s, step 4 s (steps taken: 4, 4, 2 s) and Courant number `0.125·(step size)`, target `0.5`, the adapted step is 8 s and its Courant number is 1, twice the target.
* `C05_order_beyond_max_violated`: C05: the lexicographic order is lost once an index exceeds the padding maximum (which can happen with adaptive stepping, where the step count is not limited by `stop_n`): step 10 sorts before step 9 when `stop_n = 9`.
* `C05_stamp_collision_violated`: C05 refuted for dated names: two XDMF outputs a quarter of a configured time unit apart (e.g. 15 minutes, with `unit: hours`) carry the same stamp, hence the same file name: the time in configured units is added to the start date as *seconds*.
* `C05_stamp_december_violated`: C05 refuted for December: a simulation starting in December of year `y` names its first file `(y+1)-00`.
* `C06_log_monitor_violated`: C06 refuted (log monitor): likewise for the log monitor of binary/CGNS output.
* `C06_mixed_intervals_overwrite_violated`: C06 refuted (data loss): with a step interval of 2, batches of 2 and an additional output at step 5 requested by a time interval, the dataset of step 4 is overwritten.
* `C06_time_interval_only_violated`: C06 refuted (division by zero): a configuration accepted by validation that requests XDMF output by `time_interval` only divides by zero at its first output, whatever the batch size.
* `C07_checkpoint_members_violated`: C07 refuted for checkpoints: two ensemble members simulated one after the other in one process share the first one's checkpoint directory.
* `C07_second_simulation_violated`: C07 refuted: a second simulation with a different output directory in the same process is given the first one's directory.
* `C08_reinit_courant_violated`: C08 refuted (Courant diagnostics): re-initialising after finalising leaves the library "initialised" with its MPI reduction objects already freed.
* `C08_second_cycle_violated`: C08 refuted for later cycles: after any first cycle in which the library was initialised, registering any function and finalising again calls through a null pointer (or writes outside the table): the registration count is not reset.
* `C100_after_study_violated`: C100 fails after a study: the conditions of the remaining run refer to the expressions of the run set up last, which have been released, so that a further step of the remaining run evaluates released expressions.
* `C100_bathymetry_violated`: C100 fails for meshes with two coordinates per vertex, which the rest of the code supports (`/repo/src/rdymesh.c:298-300`): the elevation is written past the entries of the vertex, of the last vertex past the end of the array.
* `C100_error_time_violated`: C100 fails for any other unit of time: the time is converted to the unit of the configuration, but the expressions, which were used with seconds during the run, are evaluated at this time.
* `C100_levels_violated`: C100 fails if the option is given with another value: the first run has that level, and the others the levels above the base. With the option one above the base and one refinement, both runs have the same mesh, and the study fails whatever the errors: there is no rate.
* `C100_roughness_violated`: C100 fails if the owned cells do not come first in the local numbering (the tables of the mesh allow for that): the cells are chosen by their local number, not by ownership. With a ghost 0 and the owned cells 1 and 2, the first owned cell gets the roughness of the ghost, the second that of the first.
* `C100_salinity_violated`: C100 fails for salinity (and likewise for temperature): its source keeps the value it had (0), whatever the manufactured salinity. In still water of depth 1, where nothing moves, a salinity that grows like the time needs a source of 1: the balance `∂(hS)/∂t = source` does not hold.
* `C100_two_runs_violated`: C100 fails for two runs set up side by side, with different files: the boundary values of both come from the expressions of the second.
* `C101_fluxes_violated`: C101 fails for the time series of boundary fluxes, whatever the steps: the flux of the extra step is accumulated and not removed. A run of one step with flux `f` has a line for step 0 with the flux `f`, instead of 0 (and with CEED, where fluxes of evaluations are added up, C110, the line for step 1 has `2 f`).
* `C101_steps_violated`: C101 fails if steps do not make up the interval: the extra step leaves the size of the shortened last step behind, and the solve takes all its steps with this size. For `u' = u` with steps of 6 and an interval of 10, the solution after one call is 75 with the option and 35 without; the run takes three steps instead of two.
* `C102_absent_region_violated`: C102 is violated for regions: a region of the configuration whose ID does not occur in the mesh is not reported; set-up goes on as if it were not there. (A boundary whose ID does not occur in the mesh is refused.)
* `C102_boundary_file_violated`: C102 is violated: a Dirichlet condition with a file is accepted for a boundary; the file is not read for it, and the boundary has depth 0 and momentum 0 if there are no expressions.
* `C102_ignored_source_violated`: C102 is violated for sources: a source for a region that does not exist (a misspelt name, say), or a second source for a region, is not reported and has no effect at all.
* `C102_malformed_violated`: C102 is violated: expressions that make no sense are accepted, and evaluated to 0: boundaries and initial states become dry, sources vanish, and the roughness is zero.
* `C102_runoff_violated`: C102 is violated: a runoff condition without `value`, but with a height and momenta (or a file), is accepted, and gives no source.
* `C102_temperature_type_violated`: C102 is violated for temperature: an initial condition that is not of Dirichlet type is accepted (for the other quantities it is refused).
* `C102_unknown_tracer_violated`: C102 is violated for tracers: if the first region's specification is in order but names a sediment (or salinity) condition that does not exist, this is not reported; the memory in front of the table is read.
* `C102_value_violated`: C102 is violated: a Dirichlet condition with only a `value` is accepted, and used as depth 0 and momentum 0, whatever the value.
* `C103_far_cell_violated`: C103 fails for cells that are too far from the raster: their entry of the map never gets a value in the driver, and reading it is undefined, whereas the library uses the first cell of the raster.
* `C103_leap_day_violated`: C103 fails for the 29th of February: the driver never comes to it, as it divides the year by 4, 100 and 400 where it means the remainder. All later files are those of a day ahead.
* `C103_map_file_violated`: C103 fails for maps that are written: the file left behind by a run of the Fortran driver gives the neighbours' data when the library reads it in a later run of either driver. Here for one process with its cells in natural order: every entry is one too large, and if a cell belongs to the last cell of the raster, the library reads behind the end of the data.
* `C103_map_read_violated`: C103 fails for maps that are read on several processes: whenever no process has all cells, the driver stops, although the library has read the same file.
* `C103_options_violated`: C103 fails for options one of the two programs ignores: with the directory of a raster and no start date the Fortran driver stops, and the C driver runs without rain.
* `C103_rain_option_violated`: C103 fails for `-rain`: the file is required to exist, but nothing depends on what is in it.
* `C103_stopped_violated`: C103 fails for runs through the 29th of February: if the data end with that day, the Fortran driver stops after the 28th as it asks for the file of 1 March, for which the library does not ask; the C driver goes on.
* `C103_time_unit_violated`: C103 fails for configurations that count time in another unit than seconds: the driver takes the time for seconds. A run that counts hours stays with the first file for 3600 hours; the library goes on to the next one after an hour.
* `C104_dry_boundary_violated`: C104 is violated at boundaries with prescribed depth 0 (a free outfall): beside a wet cell the CEED kernel divides the prescribed tracer by the prescribed depth, so the flux — and with it every component of the cell — is NaN; PETSc computes a flux.
* `C104_salinity_violated`: C104 is violated with salinity or heat: the PETSc backend evaluates the right-hand side only if neither is on (its operators count sediment classes only and stop the program when the solution has more components), while the CEED backend has a kernel for every number of tracers.
* `C104_uniform_violated`: C104 is violated at fronts: with CEED, still water of depth 1 with concentration 5 on the right of a dry cell flows into it but leaves all its tracer behind, so a uniform concentration does not stay uniform (the wet cell becomes more concentrated, the newly wet cell gets clean water).
* `C105_mixed_violated`: C105 refuted for outputs that are not at multiples of the step interval (a time interval is given beside it): an output between steps 0 and `output_interval` creates the file of the first batch anew, and the data that the XMF file of step 0 refers to are gone.
* `C105_no_grid_violated`: C105 refuted for a run that does not begin at step 0 in a directory without the grid (a restart with another output directory or another prefix): no output of it can be displayed when it is written, because the grid is written at step 0 only.
* `C105_stamp_violated`: C105 refuted for dated names: of two outputs with the same date (less than a second apart, or less than a unit of the configuration, see `C05_stamp_collision_violated`) only the second one is left.
* `C105_time_violated`: C105 refuted for long runs with short output intervals: outputs one second apart after 10 000 000 seconds state the same time.
* `C106_area_violated`: C106 refuted with hydrostatic reconstruction: the areas in the output are those of the cells in space, whereas the computation uses the projected ones; they agree only if all cells are horizontal.
* `C106_elevation_violated`: C106 refuted with a file of cell elevations: the elevations in the output are those of the mesh, whereas the computation uses those of the file.
* `C106_refined_violated`: C106 refuted for refined meshes: the same values on the same mesh are written in different orders by different distributions, so that outputs of runs with different numbers of processes cannot be compared entry by entry.
* `C107_ceed_violated`: C107 is violated at fronts with CEED: a dry cell beside water that carries a tracer. If the dry cell has the lower number on its process, the water flows into it without its tracer; if the numbers are exchanged, the same edge gives NaN. Which of the two happens depends on how the mesh was divided.
* `C107_roughness_violated`: C107 is violated where a ghost cell precedes an owned one and the roughness varies: of three pools with moving water the second, on process 1, erodes with the roughness of the third — the right-hand side of its sediment is not that of the undivided problem (nor, therefore, that of a run on one process).
* `C10_adaptive_first_step_violated`: C10 (violated): with adaptive stepping the initial step is not the configured one: with a final time of 10 and an initial step of 4 the first step is 5.
* `C10_adaptive_without_stop_violated`: C10 refuted: adaptive stepping without a final time is accepted, with a negative final time.
* `C10_check_never_fires_violated`: C10, first half (partial): for every 32-bit `stop_n`, the code counts at least one time setting, so the check "exactly two of three" never rejects anything.
* `C10_internal_step_violated`: C10 (violated): a time step that is given together with the final time is not the one used unless it divides the final time: with 10 and 3 the integrator takes steps of 10/3. With a step larger than the final time there are zero steps and the internal step is a division by zero.
* `C10_one_given_violated`: C10 refuted: with only the final time given the configuration is accepted with zero steps, and the time step then used divides by zero.
* `C10_three_given_violated`: C10 refuted: with all three settings given the configuration is accepted, and a given time step that disagrees with the others is silently replaced.
* `C110_flux_violated`: C110 fails for the vector of boundary fluxes: after two evaluations in the same state it holds twice the flux.
* `C110_rows_violated`: C110 fails on boundaries with edges of other processes: rows are packed by owned edges but read by the number of the edge. Here the second edge of the boundary is owned and its flux is 4.9, found in row 0; what is recorded for it is row 1, which stays 0.
* `C110_series_violated`: C110 fails for the time series: after two steps of length 1 with the same flux 4.9 through the edge, 14.7 is recorded instead of 9.8.
* `C113_courant_violated`: C113 (Courant numbers) is violated: on every mesh and after any evaluations the vector of the field "courant_number" of the internal edges still holds the zeros with which it was created (if libCEED finds zeros in an output that is not written), although in each of these evaluations the Courant number of an edge beside water that stands above both beds is positive. So the number that is reported, and the adaptive time step, know nothing of the internal edges.
* `C114_courant_violated`: C114 (Courant numbers) is violated: on every mesh and after any evaluations the vector of the Courant numbers of the internal edges holds zeros only, because the time step in the context of this operator is 0 and never set, although the Courant number of an edge with water on the left side is positive in each of these evaluations. So the number that is reported, and the adaptive time step, know nothing of the internal edges.
* `C115_numbering_violated`: C115 fails: the cell that a number in the configuration selects depends on the division of the mesh among the processes. A mesh of two cells, in the same state, with the same configuration: on one process the file shows the depth 10 at the first cell, on two processes the depth 20 at the other one.
* `C116_dry_violated`: C116 (violated, definedness): an evaluation is undefined as soon as an owned edge on a Dirichlet boundary is dry on both sides: the Q-function then writes `courant_num[1][i] = 0`, but this output has one component (`/repo/src/tracer/tracer_fluxes_ceed.h:135`, `/repo/src/operator_fluxes_ceed.c:449-452`). Here an empty domain next to a boundary that lets no water in.
* `C116_many_tracers_violated`: C116 (violated, number of tracers): a `TracerState` has room for five tracers, but with five sediment classes and salinity there are six (`/repo/src/tracer/tracer_types_ceed.h:25-28`, `/repo/src/operator_fluxes_ceed.c:44-46`): the Q-functions then write `hci[5]`, past the end of this array (what follows it in the structure are the members `s` and `T`, so that compilers may let it pass, but the language does not define it), and no evaluation on a process with an internal edge is defined.
* `C116_wall_flux_violated`: C116 (violated, fluxes through walls): the Q-function of reflecting walls never writes the fluxes it is asked for (`/repo/src/tracer/tracer_fluxes_ceed.h:151-203`), so that what is recorded for a wall can be any value, whatever the state is.
* `C117_imex_violated`: C117 (violated: erosion and deposition with either friction method): in still water with suspended sediment the semi-implicit method lets sediment settle; with `arkimex` the same cell keeps all of it, since erosion and deposition are computed in the routine of the semi-implicit friction (`/repo/src/tracer/tracer_sources_ceed.h:113-127`).
* `C117_many_tracers_violated`: C117 (violated: any number of tracers): with five sediment classes and salinity, which the configuration allows, the source operator writes outside the arrays of its Q-function as soon as the process owns a cell.
* `C117_salinity_violated`: C117 (violated: salinity changes by fluxes and its sources only): with one sediment class and salinity, fresh still water without any flux or source loses salt, so that its salinity becomes negative: the rates of erosion and deposition are applied to all tracers (`/repo/src/tracer/tracer_sources_ceed.h:67-72,132-134`).
* `C119_wall_violated`: **Not all correct calls succeed**: with the CEED backend, giving a concentration to a boundary that is a wall for the flow and has a Dirichlet condition for the sediment is an error (the operator of a wall has no vector of boundary values), with the PETSc backend it succeeds, but has no effect.
* `C11_exceeds_stop_violated`: C11 refuted: a coupling interval that is not specified is taken from the output time interval without comparing it with the final time, so it can exceed it.
* `C120_elevation_violated`: Without hydrostatic reconstruction, `grid.cell_elevation.file` is read and has no effect on the right-hand side, with both backends.
* `C120_no_boundary_violated`: With CEED, second order and no tracers, `upwind_roe` is refused on a process with boundaries and accepted on one without, where the other solver runs.
* `C120_salinity_bs2002_violated`: With CEED, `bradford_sanders_2002` is accepted with salinity and has no effect.
* `C120_sediment_elevation_violated`: With hydrostatic reconstruction and sediment, the PETSc backend does not use the elevations of `grid.cell_elevation.file` either; CEED does.
* `C120_upwind_violated`: With CEED, hydrostatic reconstruction and sediment, `upwind_roe` is accepted and interior edges are treated by the other solver (boundaries by the one asked for). The PETSc backend uses the one asked for everywhere.
* `C121_beds_violated`: the elevations that the operators hold: 0 and 3, although there is a file with the elevation 100 for both cells
* `C121_output_violated`: With hydrostatic reconstruction the vector of primitive variables for output is never written in a run with sediment: it keeps what it held, whatever the state (zeros from its creation).
* `C121_undefined_violated`: A process with a wet owned cell whose local number is not below the number of owned cells (a ghost cell comes before it): the source operator reads Manning's coefficient of that cell outside the vector, with and without hydrostatic reconstruction, in every evaluation.
* `C122_switch_violated`: C122 refuted: after the set-up of another simulation with the other backend, every call on the first one, and its destruction, is undefined: the member of the union that was not written is read. So whatever the resources are.
* `C123_file_violated`: C123 refuted: a file in place of the directory of a single run, or of a member, is taken for a directory: the call succeeds on every process.
* `C123_race_violated`: C123 refuted: with a slash in the name of a member, it depends on which member is faster whether the run starts.
* `C125_stray_violated`: C125 (disagreement). With cells in no cell set, whether a run starts depends on the distribution: two cells, one of them in no set, start on one process, and on two processes they are refused although each process owns a cell.
* `C125_too_many_processes_violated`: C125 (disagreement). A run on more processes than the mesh has cells is refused: some process has no region.
* `C127_member_height_violated`: A Dirichlet condition of a member without any water height is accepted as well, and its parser has an empty text.
* `C127_member_unchecked_violated`: The materials of ensemble members are not checked: a member whose material has neither a value nor a file is accepted, and reading the coefficient of that material evaluates a parser that does not exist. The same entry in the base configuration is refused.
* `C128_numbering_violated`: The positions of boundaries differ between processes, but one position is used on all of them: with two processes, one of which holds edges of a further boundary, the run ends with an error at the first values, although there is a single Dirichlet boundary and the file was accepted.
* `C12_explicit_zero_violated`: C12 refuted: an explicit zero (here the minimum water depth) or an explicit "semi_implicit" source method (with ARK-IMEX stepping) given by the user is overwritten.
* `C13_solver_violated`: C13 refuted: the upwind Roe solver is reported as "hllc" and ARK-IMEX as backward Euler.
* `C13_time_unit_violated`: C13 refuted: the configuration report never names the time unit in force, for any unit a configuration can have; for years it reads outside the table.
* `C14_name_clash_violated`: C14: names need not be distinct when some are given by the user: a user-given name can equal a default one (or another given one), since nothing checks it.
* `C15_temperature_violated`: C15 refuted for temperature: a member's temperature condition never replaces anything.
* `C20_partition_violated`: C20 is violated together with C21: three boundary edges, face sets 1 = {0} and 0 = {1} (in that order). Edge 0 is then in no boundary, and edge 2 is in two.
* `C21_fresh_id_violated`: C21 is violated when the IDs come in another order: with face sets 1 and 0 (in that order) the ID 1 is chosen.
* `C22_unknown_tracer_violated`: C22 is violated for tracers: a specification naming a sediment condition that does not exist is not reported as an error; the code forms a pointer to element -1.
* `C23_file_violated`: C23 fails for files: with one material read from a file, the cell at position `k` of the region's list gets the file's entry `k`, not the entry of that cell. Here the region consists of cells 0 and 2, and cell 2 gets the data of cell 1.
* `C23_two_materials_violated`: C23 fails: whatever the assignments say, with several constant materials every cell of every region gets the value of the *last* material in the list.
* `C23_two_materials_witness_violated`: A concrete case: region "a" is assigned material "s" with value 1, but gets value 2.
* `C24_shared_file_and_expr_violated`: C24 fails silently if the condition has both a file and expressions: the second region gets the expressions instead of the file's data.
* `C24_shared_file_violated`: C24 fails silently: two regions use the same condition, given by a file. The vector is destroyed after the first region, and for the second the expressions, which are not given, are evaluated: whatever the file says, all of the second region is dry and at rest.
* `C25_inactive_violated`: C25 fails: with sediment on and salinity off, a salinity condition in the input leads to a null pointer being followed (regions have no salinity condition then); without that condition all is well.
* `C25_salinity_expr_violated`: C25 fails: salinity given by an expression overwrites the first sediment class (and is itself left at zero).
* `C25_temperature_expr_violated`: C25 fails likewise for temperature: it overwrites salinity if there is no sediment.
* `C26_class_unchecked_violated`: C26 fails for components outside the range: the sediment class is not checked (`RDySetRegionalSedimentSource` passes component `3 + class`), so class `numClasses` (one too many, with no other tracers) writes out of bounds.
* `C26_init_violated`: C26 fails for configured sources when region IDs are not the indices: with IDs 1 and 2 (the usual numbering), the source of the first region is lost, and the first region gets the source of the second one, which gets none.
* `C27_auto_violated`: C27 fails on boundaries with automatically generated conditions: the sediment setter follows a null pointer instead of reporting an error.
* `C27_init_tracers_violated`: C27 fails for tracers at setup: a boundary with a Dirichlet condition for sediment, salinity or temperature keeps, in all tracer components of all edges, the zeros the vector is created with; the concentrations of the configuration are not consulted.
* `C27_temperature_violated`: C27 fails for temperature: setup never assigns a temperature condition to a boundary, so with heat transfer on the setter follows a null pointer on every existing boundary.
* `C28_tracers_violated`: C28 fails with tracers: for every number of components other than 3, and any two owned cells or more, there is a solution for which the second entry is not the second cell's value.
* `C28_unchecked_size_violated`: C28 fails in optimised builds: a size that is too small is not noticed, and the array is overrun.
* `C29_name_violated`: C29 fails for names that contain the other format's extension: no checkpoint written under such a base name can be read.
* `C29_nproc_violated`: C29 fails for the number of processes: after restarting on a different number of processes the library believes in the number of the run that wrote the file (buffers for gathering output are allocated from it, `/repo/src/time_series.c:38,99`).
* `C29_refined_violated`: C29 fails after refinement: a new run starts from the unrefined mesh, and a checkpoint of a refined mesh (with a different number of unknowns) cannot be read.
* `C31_ceed_violated`: C31 fails with CEED: a constant flux `f` is reported as `j f` in step `j`.
* `C31_observations_only_violated`: C31 fails if only observations are requested: the monitor is installed and computes `step % 0`.
* `C31_runge_kutta_violated`: C31 fails with the fourth-order Runge–Kutta method (PETSc backend): it evaluates the right-hand side four times per step and each evaluation adds `dt` times its flux, so a constant flux is reported four times too large.
* `C31_split_ceed_violated`: C31 fails with several `RDyAdvance` calls also with CEED, where the flux of the last step of a call is counted twice: fluxes 1 and 4 in two calls give 2 rather than 5/2.
* `C31_split_violated`: C31 fails with several `RDyAdvance` calls (PETSc backend): the monitor is called again for the first step of each call and adds `rdy->dt` to the accumulated time once more. Here the flux is constantly 1 through an edge of length 1, two steps of length 1 are taken in two calls of `RDyAdvance`, and the mean of step 2 is reported as 2/3.
* `C31_tracers_violated`: C31 fails in runs with tracers: `InitBoundaryFluxes` refuses to allocate its arrays unless there are three components, its error is dropped, and writing dereferences a null pointer.
* `C32_position_violated`: C32 fails: positions are stored in arrays of integers. A position is written correctly only if it is a whole number; what is written is within 1 of it.
* `C33_always_twice_violated`: C33 fails in every divided run observed at each step: a run of at least two calls always contains a step twice.
* `C33_sites_violated`: C33 (values) fails in general: the numbers in the configuration are used as positions in the global vector although the comment says natural IDs. For any renumbering that moves a site there is a field for which another cell's value is written.
* `C33_split_violated`: C33 fails when the run is divided: `last_step` is never updated, so the first step of every `RDyAdvance` after the first is written again if it is an observed one. Here two calls of one step each write step 1 twice.
* `C34_short_step_violated`: C34 fails when a step is shortened to land on the coupling time: with `rdy->dt = 2` and a coupling interval of 3 the integrator takes steps of 2 and 1 (`tsLoop`), but both values get weight 2: for values 0 and 3 the mean over the interval is 1, and 3/2 is written.
* `C35_ceed_edge_violated`: C35 (CEED) fails: the edge and cell are never set with CEED, so `-1` is reported whatever the edges are, also when the maximum is positive.
* `C35_tie_violated`: C35 (which edge): if two processes have the same number, the edge and cell reported depend on the order of the reduction (only the number does not).
* `C35_tracer_edge_violated`: C35 (tracers) fails: the tracer operators look the edge's global ID up with the loop counter instead of the edge's own index. Here two interior edges have local indices 1 and 2 (edge 0 is a boundary edge) and global IDs 101 and 102; the first, with ID 101, attains the maximum, but ID 100 (the boundary edge) is reported.
* `C39_accumulated_dry_violated`: C39 (disagreement). The flux that is accumulated for the boundary time series (`swe_petsc.c:623`) is not guarded by the dry test: with a reflecting wall beside an exactly dry cell it is undefined (NaN), whatever the cell's momentum.
* `C39_accumulated_outflow_violated`: C39 (disagreement). At a critical-outflow boundary the accumulated flux is undefined in every wet cell whose water moves away from the boundary, since both states are then set to zero.
* `C39_negative_depth_violated`: C39 (disagreement). A negative depth, however small, beside a wet cell gives an undefined flux that is added to the cells: the dry test does not exclude it (`swe_petsc.c:285`).
* `C42_thin_film_violated`: C42 (disagreement). The flux accumulated for the boundary time series is not the flux that changed the volume: on a Dirichlet boundary with a film of water thinner than `tiny_h` beside a dry cell, the cell receives nothing, while a non-zero inflow is accumulated (`swe_petsc.c:593` guards the former only).
* `C43_film_violated`: C43 (disagreement). A film thinner than `tiny_h` breaks the balance: for every `tiny_h` (below 1), a lake of level 1 that covers the second cell by half of `tiny_h` gets a momentum source in the first cell.
* `C45_large_threshold_violated`: C45 (disagreement). The threshold is a user setting and is not checked. With a threshold above 1 the flow can be reversed by friction: here momentum 1 becomes negative.
* `C45_zero_threshold_violated`: C45 (disagreement). With a threshold of 0 or less (the settings turn 0 into `1e-10` but accept negative values, `/repo/src/yaml_input.c:861-863,910`), still water (or a bed without roughness) leads to `0/0`, for every wet depth, roughness and time step.
* `C46_film_violated`: C46 (disagreement). A film thinner than `tiny_h` is treated as free of tracer, so at its edge the Roe solver moves water with a concentration that occurs nowhere. Here water of concentration 1 is at rest on both sides; the right cell is a film (depth 1/4, with `tiny_h` 1/2).
* `C48_friction_anuga_violated`: With regularised velocities the semi-implicit friction terms differ: CEED regularises the velocity in the roughness, PETSc does not.
* `C48_hr_anuga_violated`: CEED regularises velocities twice with hydrostatic reconstruction: uniform flow over a flat bed gets a smaller discharge than with PETSc.
* `C48_hr_step_violated`: Water on a step two units high, and below it water one unit deep that flows away: with PETSc the velocity of the lower water enters the flux over the step (through the entropy fix) although no lower water reaches the step; with CEED it does not.
* `C48_outflow_anuga_violated`: With regularised velocities the backends compute different outflows: CEED derives the critical depth from the momentum, PETSc from the regularised velocity.
* `C48_outflow_dry_violated`: At a critical-outflow boundary, a dry cell that still carries momentum draws water in from outside with CEED (negative outward flux); PETSc uses no flux.
* `C48_threshold_violated`: Two cells with a depth of exactly `tiny_h`: PETSc treats them as wet, CEED as dry.
* `C48_tracer_dry_right_violated`: Left cell wet, right cell exactly dry: CEED divides by zero, PETSc computes a flux.
* `C48_tracer_front_violated`: Left cell dry, right cell wet, upwind solver: the backends agree on the water flux, but with CEED no tracer crosses the edge, because the right concentration is guarded by the left depth.
* `C50_spanning_violated`: C50 does not hold for every cell whose neighbours span the plane: the test for a degenerate cell compares the determinant, which has the unit of a length squared, with 1e-15. In a mesh of squares with sides of 1e-8 (in the unit of the mesh coordinates) all gradients are zero.
* `C51_quad_violated`: C51 does not hold for quadrilaterals, of which only the first three vertices are used: over a tilted square with the surface 2 the mean depth is 3/2, but the surface computed from that depth is 11/6.
* `C51_two_vertices_violated`: C51 does not hold for surfaces between the two higher vertices: there the code inverts a quadratic where the volume is a cubic. In a cell with elevations 0, 0, 1 and mean depth 1/4 the computed surface is 1/2, below which there is only 5/24 of water.
* `C52_before_violated`: C52 (before the start): a time before the first sample gets the *last* value of the dataset, not the first; so a simulation starting at 0 with data from time 10 on begins with the final value.
* `C52_empty_violated`: C52 (empty file): a file with fewer than two entries is accepted when it is opened, and the first lookup reads in front of the array.
* `C53_restart_violated`: C53 (violated): a simulation that begins at or after the third hour (a restart) starts with the second file.
* `C53_two_hour_violated`: C53 (violated): with a coupling interval of two hours the call at hour `2 j` uses file `j`: the rainfall lags behind by ever more hours, and the second half of the data is never used.
* `C54_raster_violated`: C54 (violated): a mesh cell farther from the raster than the search radius silently gets the data of raster cell 0 (the north-west corner), whichever cell is nearest.
* `C55_multi_interpolation_violated`: C55 (interpolation per region): asking for interpolation has no effect on datasets given per region; what they do depends on uninitialised memory. With a zero there the value is not the interpolated one.
* `C55_multi_violated`: C55 (rainfall per region): the second of two calls within the same interval of a piecewise-constant dataset passes an uninitialised value on to RDycore.
* `C56_late_part_violated`: C56 (order of setup): a part added to a composite *after* a field was set does not see the field.
* `C56_long_names_violated`: C56 (long names): two names that differ only after `MAX_NAME_LEN` characters denote the same field.
* `C57_ghosts_violated`: C57 (ghost cells, violated): a region of which the process has only ghost cells loses them all, so the refined regions no longer cover the process's local cells.
* `C57_no_cells_violated`: C57 (no cells): a process without local cells writes outside of the arrays.
* `C59_second_cycle_leak_violated`: C59 refuted for later cycles: a context selected after the first finalisation is not destroyed by the next one, because its clean-up function is registered only once per process.
* `C62_wave_speed_violated`: C62 (disagreement). With the sonic correction the speed used in the flux can exceed the reported one many times: two bodies of water of equal depth 1 moving apart at speed 10 on each side have reported speed `√g < 4`, but the flux uses a speed of at least 20. The Courant number, and the adaptive time step computed from it, do not see this.
* `C64_roe_violated`: C64 (disagreement). The Roe solver does not obey the maximum principle: it moves water with an average concentration, so clean water flowing towards polluted water loses tracer it does not have. Here the left cell (depth 1) is clean and the right one (depth 1/4) has concentration 1; water flows to the right, and with it a positive amount of tracer out of the clean cell, whatever the step size.
* `C66_dry_source_violated`: C66 (disagreement). The PETSc backend loses an external source of tracer in a dry cell, and the CEED backend keeps it.
* `C66_negative_violated`: C66 (disagreement). Erosion is not cut off below the critical stress: clear, still water (nothing in suspension, no stress) loses sediment at the rate 0.001, so its concentration becomes negative after any step.
* `C67_parallel_violated`: C67 (disagreement). Where a ghost cell precedes an owned one, a run with tracers reads the coefficient of another cell – here even past the end of the vector, which has one entry.
* `C68_ceed_violated`: C68 does not hold for the CEED backend: `numerics.limiter` is not read there. A configuration with `limiter: none` runs with minmod, and so does one with `limiter: van_leer`, without any message.
* `C69_backend_violated`: C69 does not hold for the backends: the test refuses the method where CEED is already enabled (where the method is implemented) instead of where it is not. In a new process nothing is refused, so the PETSc backend runs without well balancing although the method was asked for; and a second setup in a process that uses CEED is refused, with a message about the PETSc version.
* `C70_uneven_violated`: C70 does not hold on an uneven bed: between any two wet cells of still water with different depths there is a mass flux from the deeper to the shallower cell, whatever the correction `dhv` is. (The correction only changes the momentum.) So still water with a horizontal surface starts to move under `bradford_sanders_2002`.
* `C71_multi_violated`: C71 (rainfall per region, violated): the dataset given for region `k` is applied to the region with ID `k - 1`; with regions 1 and 2, region 1 gets the data of region 2 and region 2 gets none.
* `C71_no_region_violated`: C71 (violated): on a mesh without a region of ID 1 the rainfall is ignored without any error.
* `C73_ceed_numbering_violated`: C73 is violated with CEED: on process 0 the ghost cell has a smaller local number than the owned cell, and the two cells receive each other's divergence. The deep cell gains mass although on the undivided mesh it loses mass. DMPlex numbers cells by type, so that this happens on meshes of triangles and quadrilaterals.
* `C74_courant_violated`: C74 (disagreement). However small the Courant number of every edge is required to be, there are a mesh of two cells, a state with positive depths and a time step meeting the requirement, for which the step makes the depth of a cell negative although rain falls on it; and from the new state no further step exists, because the next right-hand side is undefined. The time step is admissible by every measure the code reports.
* `C75_ceed_fluxes_violated`: C75 (disagreement, CEED). A boundary whose first edge belongs to a cell of another process (boundaries from face sets keep such edges) loses its flux: the flux through the second edge is stored first, and what is recorded for the second edge is 0.
* `C76_second_order_violated`: C76 (disagreement, limiters). With the default limiter the second-order scheme depends on the axes: at an edge of a mesh of three cells, the momentum reconstructed in axes turned by the angle of a 3-4-5 triangle is not the one reconstructed in the original axes, turned.
* `C78_dirichlet_violated`: C78 is violated on Dirichlet boundaries when salinity or heat is transported without sediment: the Q-function takes the water surface at one vertex, a field with one component, for the boundary values of all unknowns; all of these but the first are read from beyond the field.
* `C78_dry_courant_violated`: C78 is violated on Dirichlet boundaries with tracers: where both sides are dry, two Courant numbers are written to a field with one component.
* `C78_hr_violated`: C78 is violated with hydrostatic reconstruction: in **every** accepted configuration with it, the Q-function for interior edges takes for the Courant numbers the position at which the field `flux` is registered; `courant_number` is not written at all.
* `C78_reflecting_flux_violated`: C78 is violated on reflecting boundaries with tracers: the boundary fluxes of the output are never written, so they stay as they were (0).
* `C79_accumulates_violated`: C79 is violated with every scheme from the second evaluation on: the vectors `courant_number` are passive outputs of operators that are applied by `CeedOperatorApplyAdd` and are never set to 0 again, so the numbers of all evaluations since the operators were created are added up. With an interior edge of constant Courant number `N`, the number reported after `k` evaluations is `k * N`; however small `N` is compared to the target, after enough evaluations the adaptive time step is reduced instead of increased.
* `C79_violated`: C79 is violated with hydrostatic reconstruction and with the second-order scheme: however large the Courant number `N` of an interior edge, the number reported is 0, and the adaptive time step grows by the largest factor allowed instead of being reduced.
* `C80_violated`: C80 is violated: with the largest number of sediment classes allowed and salinity (or heat), the configuration passes the check, but the kernels write one entry beyond the end of the arrays of concentrations and of rates.
* `C81_salinity_violated`: C81 (disagreement). Salinity and temperature cannot be written: whatever fields are requested, if they pass the validation, no dataset holds a component beyond the sediment classes.
* `C82_backends_violated`: C82 (disagreement). At depth `tiny_h` the CEED backend writes velocity 0, the PETSc backend does not.
* `C82_regularised_violated`: C82 (disagreement). With regularisation, the written velocity of moving water is smaller than momentum divided by depth.
* `C82_tracer_hr_violated`: C82 (disagreement). With sediment and hydrostatic reconstruction on the PETSc backend the velocities and concentrations in the output are always 0.
* `C82_violated`: C82 (disagreement). In the first output the velocities are 0 whatever the initial condition, and in a later output they are those of the step before: a forward Euler step of a closed cell pushed by a momentum source (no roughness) yields momentum 1 at depth 1, but velocity 0 is written with it.
* `C83_solver_violated`: C83 (disagreement). The CEED kernel ignores the solver of the configuration: with `upwind` asked for, where PETSc moves tracer with the concentration of the water that flows, CEED computes the Roe flux. Here the left cell is clean and deep, the right one (depth 1/4) has concentration 1, and water flows to the right: CEED moves tracer out of the clean cell.
* `C83_waterfall_violated`: C83 (disagreement). Water falling over a step spoils a CEED run with tracers: two wet cells, the water surface of the right one not above the bed of the left one. The CEED kernel divides 0 by 0 (the concentration of the empty reconstructed right state is guarded by the depth of the left one), so all tracers of both cells become NaN; the PETSc operator computes a flux.
* `C84_anuga_violated`: C84 (disagreement). With `h_anuga_regular` 1, switching on a tracer doubles the discharge: water of depth 1 with discharge 1 leaves the cell through a boundary edge of length 1 at the rate 1 in the run with tracers, at the rate 1/2 in the run without (which regularises the velocity). With and without hydrostatic reconstruction.
* `C85_ceed_numbering_violated`: C85 is violated with CEED if a ghost cell precedes an owned cell in the local numbering: as in first-order runs (`C73_ceed_numbering_violated`) the cells of process 0 receive each other's divergence, and the deep cell gains mass although on the undivided mesh it loses mass.
* `C85_warning_violated`: C85 (warning) is violated: the warning that cells have a degenerate stencil counts ghost cells, of which a process does not know all neighbours. The same mesh gives no warning on one process and a warning about two cells on two processes. The gradients are not affected, see `C85_gradients`.
* `C86_invalid_start_violated`: C86 (violated): a start date that does not exist is not rejected. A run that is asked to start with the data of 30 February 2023 uses those of 2 March.
* `C86_stamp_violated`: C86 (violated): the calendar used for output files is that of another month and year (the month after the configured one, 1900 years later). A run that starts on 28 February 2017 writes a file with the date 29 February 2017 one day later, and one with 31 February three days later.
* `C86_summer_time_violated`: C86 (violated): `mktime` works in the local time zone of the machine. Where summer time begins, the file of an hour is left out (after 1:00 comes 3:00, and the data of the rest of the summer are those of one hour later), and where it ends a file is used for two hours.
* `C87_boundary_map_violated`: C87 (violated): `-unstructured_bc_read_map_file` and `-unstructured_bc_write_map_file` are accepted and have no effect.
* `C87_ignored_violated`: C87 (violated): a directory with rainfall or boundary data is ignored without a message if the start date is not given (or is misspelt): the run has no rain.
* `C87_map_files_violated`: C87 (violated): if both options are given, the file to be written is not written; the file that was to be read is overwritten.
* `C87_truncated_violated`: C87 (violated): of more than 20 files (and regions) only the first 20 are used, without a message; it does not even matter whether there are as many regions as files.
* `C88_later_file_violated`: C88 (violated): the header of a later file is not looked at. Whatever it says about the number of points and of values, the rest is read as if the shape were that of the first file; a shorter later file is read beyond its end.
* `C88_mesh_points_violated`: C88 (violated): a mesh file with more points than the data file has rows is accepted, and values beyond the end of the file are read.
* `C88_raster_short_violated`: C88 (violated): the number of values in a raster file is not checked; from a file that is too short values beyond the end are read.
* `C88_read_map_violated`: C88 (violated): the entries of a map file are not compared with the number of data points; a map of another dataset makes the program read beyond the end of the data.
* `C88_stride_violated`: C88 (violated): a file whose header gives no values per point makes the program divide by zero instead of failing with a message.
* `C89_directory_violated`: C89 (violated): the directory of the configuration file becomes part of the names of output files. For a configuration file in a subdirectory they would lie in a directory that is not created, for one in the parent directory they lie outside the output directory.
* `C89_prefix_violated`: C89 (violated): an extension in the name of a directory ends the prefix; two configuration files in that directory write the same output files.
* `C89_two_patterns_violated`: C89 (violated, latent): the table has room for further patterns, but with two of them the program fails, or writes beyond the buffer if the second substitute is shorter than its pattern.
* `C90_cgns_violated`: C90 (violated): longer names are cut off without a message; two runs with different output directories may write the same file.
* `C90_second_run_violated`: C90 (violated): what the program sets for one simulation looks like an option of the user to the next simulation of the same process. Its output interval is that of the first one, and after a simulation with CGNS output it writes CGNS output (to the files of the first one) whatever its configuration says.
* `C92_exact_violated`: C92 fails for a computation without error: if the error of a component in some norm is zero at some level, the rate is not a number and the study does not pass, whatever is expected.
* `C92_region_violated`: C92 fails if no region has the ID 1 (IDs come from the mesh): nothing is set, and nobody is told.
* `C92_salinity_violated`: C92 fails for salinity: its rates are compared with the expected rates of a sediment class that is not there (class `nc` of `nc`; zero if not given), not with those given for salinity. So a study in which salinity converges more slowly than required passes.
* `C92_times_option_violated`: C92 fails with the option `-dt`: it is used at the coarsest level only.
* `C92_times_steps_violated`: C92 fails for steps that do not divide the final time, in seconds too: with final time 10 and step 3 the coarsest level ends at 10 and the refined ones at 9, and all are compared with the solution at 10.
* `C92_times_unit_violated`: C92 fails for times in hours: the coarsest level runs for 36000 s, the refined levels for 10 s, and all are compared with the solution at 10.
* `C93_after_end_violated`: C93 fails with binary output when `RDyAdvance` is called after the end of the run has been reached: the monitor uses the viewer that was destroyed at the end.
* `C93_message_violated`: C93 fails for messages about output that is asked for by time alone (`output.time_interval` without `output.output_interval`, binary or CGNS): with detailed logging the first solve divides by the interval, which is zero.
* `C93_read_violated`: C93 fails where a checkpoint is read through the interface (`RDyReadHDF5CheckpointFile`) before the first `RDyAdvance`: neither fields (unless CGNS) nor time series are written.
* `C93_refine_first_violated`: C93 fails where the mesh is refined before the first `RDyAdvance`, as `driver/amr.c` does when it is given a dataset: checkpoints are not written, and with binary output the first solve uses freed memory unless the allocator gives the address of the first viewer again.
* `C93_refine_violated`: C93 fails for checkpoints and time series in a refined run: once the mesh has been refined (after the first step), no checkpoint and no time series is written any more.
* `C93_reinitialize_violated`: C93 fails with binary output when a run takes its initial values from a checkpoint and starts at step 0: the first `RDyAdvance` sets output up twice; unless the allocator gives the second viewer the address of the first, which has just been freed, the first registration remains and the first solve uses freed memory.
* `C93_restart_series_violated`: C93 fails for time series in a restarted run: a run that continues from a checkpoint of a later step than the first never records boundary fluxes or observations, whatever is asked for and however it goes on.
* `C94_clock_violated`: C94 (clock, violated): with `-ts_dt d`, refinement sets the time step with which the next `RDyAdvance` starts (and that `RDyGetTimeStep` reports) back to `d`, whatever the adaptive time step had become.
* `C94_elevation_violated`: C94 (files, violated): the elevations that the configuration takes from a file were read for the first mesh; a refinement that changes the number of cells ends in an error, as the same file is read again.
* `C94_marks_violated`: C94 (number of marks, violated): in builds without debugging too few marks are accepted, and the refinement reads past their end.
* `C94_rain_violated`: C94 (rainfall, violated): on a mesh whose cells all belong to region 1, once a refinement has changed the number of owned cells, applying constant, homogeneous, raster or unstructured rainfall is an error: it still has the number of values of the first mesh.
* `C94_unmarked_violated`: C94 (unmarked, violated): if no cells were marked (or the marks were used by an earlier refinement), owned cells in a fixed box are refined all the same.
* `C94_values_violated`: C94 (values set by calls, violated): wherever a call had set a Manning coefficient or a source (`set`) that differs from that of the configuration (`new`), the fine cells do not have it any more.
* `C95_map_before_refinement_violated`: C95 (base level, violated): mapping data from the base level to the current mesh before any refinement accesses a matrix that does not exist, although the two meshes are the same.
* `C95_map_violated`: C95 (forcing, violated): if the map of a raster is read from a file, the map allocated before is left.
* `C95_marks_violated`: C95 (marks, violated): marking cells `n + 1` times before refining them leaves `n` arrays of marks, as does marking them without refining.
* `C95_observations_violated`: C95 (observations, violated): with observations a finished run leaves the vector in which they are collected, and on all processes but the first also the vector of the sites and the scatter.
* `C95_operator_violated`: C95 (operator, violated): with libCEED and the well balancing of Bradford and Sanders the operator for the elevations of the water at the vertices is left, once for every operator made, that is, once more for every refinement.
* `C95_salinity_violated`: C95 (salinity, violated): with salinity alone the parsers made for a manufactured solution that the run does not have are left.
* `C95_sediment_violated`: C95 (sediment, violated): with sediment a run leaves seven references (the DMs of flow and tracers, their four vectors and the parsers of manufactured solutions), and *every refinement leaves four more*: a program that refines its mesh again and again runs out of memory.
* `C95_viewers_violated`: C95 (viewers, violated): a run that is destroyed before its final time leaves the viewer and its format.
* `C96_empty_violated`: C96 (numbers of vertices, violated): if one process has no vertex (more processes than cells), its minimum was never assigned, and the numbers on *all* processes are undefined.
* `C96_nonmanifold_violated`: C96 (edges, violated): an edge at which three cells meet (a mesh that petsc accepts) keeps the first and the last: the cell between them has the edge, but the edge has not the cell, and no flux crosses it. Only debugging builds of petsc check the number.
* `C96_numbers_violated`: C96 (natural numbers, violated): without the natural ordering, that is, after a refinement, in a run with several processes all cells have the natural number -1, as all edges always have the global number -1.
* `C96_roots_violated`: C96 (numbers of vertices, violated): the process of the root is ignored. Of a mesh that several processes have read, different vertices get the same number.
* `C97_forcing_shift_violated`: C97 fails for checkpoints within a coupling interval if the forcing changes with time: the forcing is applied at the start of each call of `RDyAdvance`, and the calls of the restarted run start elsewhere. A tank that receives 10 units of rain in twenty seconds receives 5 if the run is restarted from the checkpoint of second 5; both runs end at the same time with the same number of steps.
* `C97_hourly_violated`: C97 fails for hourly files (raster or unstructured data): the forcing object of the restarted run starts with the file of the start date and opens at most one further file in each call. With calls of an hour, a run restarted after `k` hours (`k ≥ 1`) uses in its `j`th call the file of hour `j + 1`, and never that of hour `k + j`, which the uninterrupted run uses: it stays `k - 1` hours behind.
* `C97_last_checkpoint_violated`: C97 fails for the last checkpoint of a run with adaptive steps: the file written at the end of the last call holds the step size of that call, and the measured Courant number is not stored. The run restarted from it begins with the old step size, whereas a run that goes on adapts it (unless the number measured happens to be the target).
* `C97_mean_violated`: C97 fails for time averages: the sums accumulated since the last output are not part of a checkpoint. With output every four steps and the values 0, 10, 20, 30, 40, the output of step 4 is the mean 25 of steps 1 to 4; after a restart from step 2 it is 30, the mean of steps 2 to 4.
* `C97_overshoot_violated`: C97 fails for checkpoints within a coupling interval, if steps are adaptive: the calls of the restarted run end at the time of the checkpoint plus whole intervals, and the driver's loop goes on beyond the end of the simulation: a run that was to end at `stop`, `N` intervals from the start, ends `ρ` later, where `ρ` is how far into its interval the checkpoint was taken.
* `C98_box_violated`: C98 (refinement ends), what fails without data: a triangle with its centroid in the box is split at every advance but the first, without a bound, so that after `N + 1` advances there is a cell whose area is `4 ^ N` times smaller, while the time step stays what it was.
* `C98_options_violated`: C98 (options), what fails: with fewer than five values of `-refine_data_start_date` the program goes on with entries of its array that were never set; and a directory without a date is not noticed: the run refines a fixed box instead of what the data say.
* `C98_time_violated`: C98 (the time of the data), what fails: the date advances by one minute per advance whatever the coupling interval is, so that for every other interval all files but the first are those of the wrong time.
* `C99_build_configuration_violated`: **C99 (build configuration, violated).** The variable that `RDyGetBuildConfiguration` fills holds the text and NULs (`/repo/src/rdycore.c:60`), not the text and blanks as a Fortran variable should: `trim`, as in `/repo/driver/main.F90:1493`, leaves all 1024 characters.
* `C99_convergence_violated`: **C99 (convergence rates, violated).** `RDyMMSEstimateConvergenceRates` of the module passes five arguments (`/repo/src/f90-mod/rdycore.F90:584-593`) to a C function with four: the number of refinements is taken for the address of the first array.
* `C99_restarted_violated`: **C99 (restarted, violated).** If `PetscBool` is an enumeration, `RDyRestarted` of a restarted run is not `PETSC_TRUE` but the code of the first letter of the file name (`/repo/src/rdycore.c:186`): a comparison with `PETSC_TRUE` fails.
* `C99_text_violated`: **C99 (long names, violated).** The variable has room for names of 1024 characters, but C gets such a name without its last character (`/repo/src/f90-mod/rdycore.F90:513`): another file.
* `C99_version_violated`: **C99 (version, violated).** `RDyGetVersion` of the module calls nothing (`/repo/src/f90-mod/rdycore.F90:467-472`): the numbers of the version and the status stay what they were. The interface it would use is wrong for 64-bit integers: C writes three `int` where the interface has three `PetscInt`.

## Axioms of the property theorems

From `#print axioms` on all 861 theorems of the manifest:

* no axioms (11): `C05_stamp_december_violated`, `C100_two_runs_violated`, `C102_temperature_type_violated`, `C123_race_violated`, `C33_split_violated`, `C68_ceed_partial`, `C68_ceed_violated`, `C68_petsc`, `C69_backend_violated`, `C87_boundary_map_violated`, `C87_map_files_partial`.
* `propext` only (34): `C07_all_callers_get_first`, `C07_second_simulation_violated`, `C07_single_simulation_partial`, `C08_init_idempotent`, `C08_reinit_courant_violated`, `C120_kernels`, `C123_member_path`, `C123_path_round_trip`, `C125_division`, `C127_member_height_violated`, `C13_methods_partial`, `C13_solver_violated`, `C13_spatial`, `C13_time_unit_violated`, `C13_unit_abbreviation`, `C15_names_preserved`, `C15_sections_partial`, `C15_temperature_violated`, `C20_index`, `C22_unknown_tracer_violated`, `C28_natural_ids`, `C31_tracers_violated`, `C56_late_part_violated`, `C57_no_cells_violated`, `C58_ancestor`, `C59_second_cycle_leak_violated`, `C69_sediment_partial`, `C78_dry_courant_violated`, `C87_map_files_violated`, `C93_message_violated`, `C93_reinitialize_violated`, `C94_marks_partial`, `C99_init`, `C99_restarted_partial`.
* `propext, Quot.sound` only (56): `C05_stamp_month_partial`, `C06_index_within_max`, `C06_log_monitor_violated`, `C06_no_division_by_zero_partial`, `C06_time_interval_only_violated`, `C06_unbatched`, `C08_each_once_partial`, `C08_initialized_spec`, `C08_second_cycle_violated`, `C09_finalizers_reverse_order`, `C09_user_functions`, `C100_after_study_violated`, `C100_study`, `C102_absent_region_violated`, `C102_ignored_source_violated`, `C102_regions`, `C102_unknown_tracer_violated`, `C104_salinity_violated`, `C122_defined_partial`, `C122_one_backend_partial`, `C122_seen`, `C122_switch_violated`, `C122_undefined_iff`, `C123_common_file`, `C123_ensemble_output_partial`, `C123_exists`, `C123_file_violated`, `C123_order`, `C123_refused`, `C123_single_output_partial`, `C125_stray_violated`, `C127_parsers`, `C127_texts`, `C17_edge_classes`, `C19_rejects`, `C20_contents_partial`, `C20_missing_is_error`, `C20_partition_violated`, `C21_fresh_id_partial`, `C21_fresh_id_violated`, `C22_all`, `C33_written`, `C56_sequence`, `C59_ceed_follows_last_request`, `C59_first_finalize_frees_all`, `C78_reflecting_flux_violated`, `C93_after_end_violated`, `C96_agreement`, `C96_cells`, `C96_edges`, `C96_nonmanifold_violated`, `C96_numbers_violated`, `C96_refined_numbers`, `C96_vertices`, `C98_options_partial`, `C99_restarted_violated`.
* `propext, Classical.choice, Quot.sound`: the other 760 theorems.
