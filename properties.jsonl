{"id": "C01", "title": "Time-unit conversion round-trips and scales correctly", "statement": "Converting a time from any unit to seconds and back gives the same time, converting between two units through RDyConvertTime is independent of route and order-preserving, and the factors are the calendar-free constants 60, 3600, 86400, 30*86400, 365*86400.", "quantifier": "every real time and every pair/triple of supported time units", "why_tests_cant": "tests sample a few values of a few units; the law ranges over all reals and all unit pairs", "anchors": ["src/rdysetup.c:ConvertTimeToSeconds", "src/rdysetup.c:ConvertTimeFromSeconds", "src/rdyadvance.c:RDyConvertTime"]}
{"id": "C02", "title": "Coupling interval get-after-set", "statement": "After RDySetCouplingInterval(unit,x), RDyGetCouplingInterval(unit') returns x expressed in unit' whatever unit the configuration uses; a later set replaces an earlier one; and no interval that would keep the coupling loop from making progress (x <= 0) can be stored.", "quantifier": "every stored interval, every real x, every pair of units", "why_tests_cant": "needs every value/unit combination and every prior state", "anchors": ["src/rdyadvance.c:RDyGetCouplingInterval", "src/rdyadvance.c:RDySetCouplingInterval"]}
{"id": "C03", "title": "Coupling loop advances by exactly one interval per call and terminates", "statement": "Each RDyAdvance call moves simulated time forward by exactly one coupling interval; after n calls time is t0+n*interval; RDyFinished becomes true after ceil(stop/interval) calls and never before, so the driver loop terminates for every positive interval; the final time never overshoots stop by a full interval or more.", "quantifier": "every start time, positive interval, stop time and number of calls", "why_tests_cant": "loop length unbounded; tests run a handful of step counts", "anchors": ["src/rdyadvance.c:RDyAdvance", "src/rdyadvance.c:RDyFinished", "driver/main.c:main"]}
{"id": "C04", "title": "Adaptive time step stays positive, bounded and at the target Courant number", "statement": "With adaptive stepping enabled, the next time step is positive, never grows by more than max_increase_factor, is never larger than the coupling interval, and (Courant number being proportional to dt) the predicted Courant number for the new step never exceeds the target, over any history of measured Courant numbers.", "quantifier": "every history of Courant-number measurements, every valid adaptive configuration", "why_tests_cant": "histories are unbounded; tests exercise one trajectory", "anchors": ["src/rdyadvance.c:RDyAdvance"]}
{"id": "C05", "title": "Output file names are unique per index and sort in step order", "statement": "Distinct indices not exceeding the declared maximum give distinct zero-padded file names of equal length whose lexicographic order equals the numeric order.", "quantifier": "every directory, prefix, suffix, maximum and pair of indices", "why_tests_cant": "all index pairs below an arbitrary maximum", "anchors": ["src/rdyadvance.c:GenerateIndexedFilename", "src/rdyadvance.c:DetermineOutputFile", "src/checkpoint.c:WriteCheckpointFile"]}
{"id": "C06", "title": "Output batching puts each dataset in exactly one file with at most batch_size datasets per file", "statement": "Writing outputs at steps that are multiples of the step interval, the k-th dataset goes to file k/batch_size, a file is created exactly at its first dataset and appended to otherwise, no dataset is overwritten or lost, and computing the target file never divides by zero for an accepted configuration.", "quantifier": "every output interval, batch size and number of steps; every accepted configuration", "why_tests_cant": "unbounded run lengths and all accepted configurations including time-interval-only output", "anchors": ["src/rdyadvance.c:DetermineOutputFile", "src/xdmf_output.c:WriteXDMFHDF5Data", "src/rdyadvance.c:WriteOutputLogMessage"]}
{"id": "C07", "title": "Each simulation's files go to its own configured directory", "statement": "Output and checkpoint files of a simulation go to the directory named in that simulation's configuration (plus its ensemble member name), whatever simulations the process ran before.", "quantifier": "every history of simulations created in one process", "why_tests_cant": "requires quantifying over process histories, not one run", "anchors": ["src/rdyadvance.c:GetOutputDirectory", "src/checkpoint.c:GetCheckpointDirectory"]}
{"id": "C08", "title": "Initialisation and finalisation bracket correctly across any history", "statement": "RDyInit is idempotent; RDyInitialized is true exactly between an init and the next finalize; after init/finalize cycles each finalizer registered in the current cycle runs exactly once and none from earlier cycles run.", "quantifier": "every sequence of init, register and finalize calls", "why_tests_cant": "call histories are unbounded", "anchors": ["src/rdycore.c:RDyInit", "src/rdycore.c:RDyInitialized", "src/rdycore.c:RDyFinalize", "src/rdycore.c:RDyOnFinalize"]}
{"id": "C09", "title": "Finalizers run once each in reverse order of registration", "statement": "In a fresh process, RDyFinalize calls every function registered with RDyOnFinalize exactly once, last registered first, for any number of registrations (the table grows as needed).", "quantifier": "every list of registered functions", "why_tests_cant": "any number of registrations incl. capacity growth", "anchors": ["src/rdycore.c:RDyOnFinalize", "src/rdycore.c:RDyFinalize"]}
{"id": "C10", "title": "Accepted time settings are exactly two out of three and the third is consistent", "statement": "A configuration is accepted only if exactly two of time.stop, time.stop_n and time.time_step are given; the third is then derived so that stop = stop_n * time_step up to one step, a given value is never changed, and the integrator starts with that time step.", "quantifier": "every combination of given/omitted settings and every value", "why_tests_cant": "all combinations of three optional numeric settings", "anchors": ["src/yaml_input.c:ValidateConfig", "src/yaml_input.c:SetMissingValues"]}
{"id": "C11", "title": "The accepted coupling interval lies in (0, stop]", "statement": "After validation of a configuration the coupling interval is positive and does not exceed the stop time; with an output time interval it divides it evenly, in the same unit.", "quantifier": "every configuration accepted by validation", "why_tests_cant": "all numeric/unit combinations", "anchors": ["src/yaml_input.c:ValidateConfig"]}
{"id": "C12", "title": "Default filling is idempotent and never overwrites a given value", "statement": "Filling in defaults twice equals filling once, and any value explicitly given by the user survives unchanged.", "quantifier": "every configuration", "why_tests_cant": "all configurations, including explicit zeros", "anchors": ["src/yaml_input.c:SetMissingValues"]}
{"id": "C13", "title": "Configuration report prints the configured enumerators", "statement": "The printed configuration names the time unit, Riemann solver and temporal method that are in force, with no out-of-range table access.", "quantifier": "every enumerator value", "why_tests_cant": "exhaustive over enumerators incl. UNSET", "anchors": ["src/yaml_input.c:TimeUnitString", "src/yaml_input.c:RiemannString", "src/yaml_input.c:TemporalString", "src/rdysetup.c:TimeUnitAsString"]}
{"id": "C14", "title": "Ensemble decomposition gives equal contiguous process blocks", "statement": "For every ensemble accepted by validation, each process belongs to exactly one existing member, each member gets nproc/size consecutive ranks, and ranks of a member keep their order.", "quantifier": "every number of processes and every ensemble size dividing it", "why_tests_cant": "all (nproc,size) pairs", "anchors": ["src/ensemble.c:ConfigureEnsembleMember", "src/yaml_input.c:ValidateConfig"]}
{"id": "C15", "title": "Ensemble overrides replace exactly the named entries", "statement": "A member's overrides replace the same-named materials and flow/sediment/salinity/temperature conditions and leave everything else unchanged; list lengths and names are preserved.", "quantifier": "every base list and every override list", "why_tests_cant": "arbitrary lists of entries with arbitrary names", "anchors": ["src/ensemble.c:ConfigureEnsembleMember"]}
{"id": "C16", "title": "Owned/local cell numbering is a bijection", "statement": "Owned-cell indices 0..n-1 and locally-owned cells are in one-to-one, order-preserving correspondence; ghost cells map to no owned index.", "quantifier": "every mesh partition (any pattern of owned/ghost cells)", "why_tests_cant": "arbitrary ownership patterns", "anchors": ["src/rdymesh.c:RDyCellsCreateFromDM", "src/rdymesh.c:RDyMeshCreateFromDM"]}
{"id": "C17", "title": "Edge normals are unit vectors, perpendicular to the edge and point from left cell to right cell", "statement": "For every non-degenerate edge the stored (cos,sin) pair is a unit vector orthogonal to the edge, and with both adjacent cells present points from left centroid towards right centroid; reversing the vertex order of the edge does not change it.", "quantifier": "every pair of distinct edge vertices and every pair of cell centroids", "why_tests_cant": "geometry is continuous", "anchors": ["src/rdymesh.c:ComputeAdditionalEdgeAttributes"]}
{"id": "C18", "title": "Cell slopes are exact for planar beds and independent of vertex order", "statement": "For any non-degenerate triangle whose vertices lie on the plane z = a x + b y + c the computed bed slopes are (a, b), for any vertex ordering; quads on a plane likewise.", "quantifier": "all triangles/quads, planes and orderings", "why_tests_cant": "continuous geometry", "anchors": ["src/rdymesh.c:ComputeXYSlopesForTriangle", "src/rdymesh.c:ComputeAdditionalCellAttributes"]}
{"id": "C19", "title": "XDMF mixed connectivity decodes to the cells written", "statement": "The flat topology array written to the grid file decodes (by the XDMF mixed-topology rule) to exactly the list of cells and their vertices, and its length equals the announced size.", "quantifier": "every list of triangles and quads", "why_tests_cant": "arbitrary mesh sizes and mixes", "anchors": ["src/rdymesh.c:CreateCellConnectionVector", "src/xdmf_output.c"]}
{"id": "C20", "title": "Boundary edges are partitioned among boundaries", "statement": "After setup every boundary edge adjacent to an owned cell belongs to exactly one boundary: its face set, or the automatically created boundary of unassigned edges; no edge is lost or duplicated.", "quantifier": "every mesh with disjoint face sets, every list of face sets", "why_tests_cant": "arbitrary face sets", "anchors": ["src/rdysetup.c:InitBoundaries"]}
{"id": "C21", "title": "The automatically created boundary has a fresh ID", "statement": "The ID chosen for the boundary of unassigned edges differs from every face-set ID present in the mesh.", "quantifier": "every list of face-set IDs in any order", "why_tests_cant": "arbitrary ID lists in arbitrary order", "anchors": ["src/rdysetup.c:InitBoundaries"]}
{"id": "C22", "title": "Every boundary gets exactly one boundary condition; unspecified ones reflect", "statement": "After setup each boundary has the single condition specification that names it; specifying it twice is an error; a boundary with no specification gets an automatically generated reflecting condition.", "quantifier": "every list of boundaries and every list of specifications", "why_tests_cant": "arbitrary lists", "anchors": ["src/rdysetup.c:InitBoundaryConditions"]}
{"id": "C23", "title": "Every cell gets the material of its region", "statement": "After setup the material property of each owned cell in a region is the one of the material assigned to that region by surface_composition.", "quantifier": "every list of materials, regions and assignments", "why_tests_cant": "arbitrary assignments of >=2 materials", "anchors": ["src/rdysetup.c:InitMaterialProperties"]}
{"id": "C24", "title": "Initial condition of every region is written to all of its owned cells and nowhere else", "statement": "After setup each owned cell of every region with an initial condition holds the state given by that condition, also when several regions share one condition read from a file.", "quantifier": "every list of regions and conditions", "why_tests_cant": "several regions sharing a file-based condition", "anchors": ["src/rdysetup.c:InitFlowSolution", "src/rdysetup.c:InitInitialConditions"]}
{"id": "C25", "title": "Tracer components occupy disjoint slots", "statement": "Sediment classes, salinity and temperature occupy pairwise disjoint component ranges covering the tracer vector; initial and boundary data for one tracer never change another's.", "quantifier": "every number of sediment classes and every on/off choice of salinity and temperature", "why_tests_cant": "all configurations", "anchors": ["src/rdysetup.c:InitTracerSolution", "src/rdydata.c:RDySetSedimentDirichletBoundaryValues", "src/rdydata.c:RDySetSalinityDirichletBoundaryValues", "src/rdydata.c:RDySetTemperatureDirichletBoundaryValues"]}
{"id": "C26", "title": "A source given for a region reaches that region's owned cells only", "statement": "Setting a regional water/momentum/sediment source by region ID changes exactly the owned cells of the region with that ID, in the addressed component, and reading back returns the value; sources in the configuration apply to the region they name.", "quantifier": "every mesh, region list with arbitrary IDs, values and history of setter calls", "why_tests_cant": "arbitrary region IDs and call histories", "anchors": ["src/rdydata.c:RDySetRegionalWaterSource", "src/rdydata.c:RDySetHomogeneousRegionalWaterSource", "src/rdysetup.c:InitSourceConditions", "src/operator.c:GetOperatorRegionalExternalSource"]}
{"id": "C27", "title": "Dirichlet boundary setters write exactly the addressed boundary and components", "statement": "Setting Dirichlet values on a boundary changes only that boundary's values for the addressed components; reading back returns the values set; other boundaries and components keep theirs.", "quantifier": "every boundary list, component layout, values and history", "why_tests_cant": "arbitrary histories", "anchors": ["src/operator.c:SetOperatorBoundaryValues", "src/operator.c:SetOperatorBoundaryValues", "src/rdydata.c:RDySetFlowDirichletBoundaryValues"]}
{"id": "C28", "title": "Prognostic-variable getters return the state of the cell asked for", "statement": "Getting the water depth/momenta of owned cells returns component 0/1/2 of cell i at position i, for any number of tracers.", "quantifier": "every solution vector, any number of degrees of freedom per cell", "why_tests_cant": "all tracer configurations", "anchors": ["src/rdydata.c:RDyGetPrognosticVariableOfOwnedCell"]}
{"id": "C29", "title": "Checkpoint/restart round-trip", "statement": "Restarting from a written checkpoint restores time, step, time step and solution, in either file format, and leaves the parallel decomposition description unchanged; with reinitialisation the clock restarts at zero.", "quantifier": "every state, format, file name and process count", "why_tests_cant": "all states and file names", "anchors": ["src/checkpoint.c:WriteCheckpoint", "src/checkpoint.c:ReadCheckpointFile"]}
{"id": "C30", "title": "Checkpoints are written exactly at multiples of the interval under distinct names", "statement": "A checkpoint is written at a step iff checkpointing is on and the step is a multiple of the interval, and different steps up to the last step give different files.", "quantifier": "every interval and every step", "why_tests_cant": "unbounded steps", "anchors": ["src/checkpoint.c:WriteCheckpoint", "src/checkpoint.c:WriteCheckpointFile"]}
{"id": "C31", "title": "Boundary-flux time series reports each step once with the interval-mean flux", "statement": "Over any sequence of steps, each record is the time-average of the fluxes since the previous record; summing record*duration gives the total boundary flux; each simulated step contributes once, and no division by zero occurs for an accepted configuration.", "quantifier": "every step sequence and interval configuration, including repeated monitor calls", "why_tests_cant": "unbounded histories incl. repeated calls at coupling boundaries", "anchors": ["src/time_series.c:AccumulateBoundaryFluxes", "src/time_series.c:RecordBoundaryFluxes", "src/time_series.c:WriteBoundaryFluxes", "src/time_series.c:WriteTimeSeries"]}
{"id": "C32", "title": "Boundary-flux time series reports edge positions as in the mesh", "statement": "The edge centroid written next to each flux equals the centroid of that edge in the mesh.", "quantifier": "every edge centroid", "why_tests_cant": "continuous coordinates", "anchors": ["src/time_series.c:InitBoundaryFluxes", "include/private/rdycoreimpl.h"]}
{"id": "C33", "title": "Observation time series contains each observed step once, in order", "statement": "The observation file has strictly increasing steps, one record per observed step, however the run is divided into RDyAdvance calls.", "quantifier": "every sequence of monitor calls", "why_tests_cant": "coupling boundaries repeat monitor calls", "anchors": ["src/time_series.c:WriteTimeSeries", "src/time_series.c:WriteObservations"]}
{"id": "C34", "title": "Time-averaged output equals the dt-weighted mean since the last output", "statement": "A time-averaged output variable is the sum of dt*value over the steps since the previous output divided by the sum of dt, each step counted once no matter how often the output monitor is called for it.", "quantifier": "every monitor-call trace", "why_tests_cant": "unbounded traces with duplicates", "anchors": ["src/xdmf_output.c:WriteXDMFOutput", "src/xdmf_output.c:AccumulateOutputVar", "src/xdmf_output.c:ComputeMean"]}
{"id": "C35", "title": "Global Courant number is the true maximum, independent of reduction order", "statement": "The reported maximum Courant number is an upper bound attained by some edge; reduction over processes gives the same maximum in every order and is idempotent; the reported edge/cell attain it.", "quantifier": "every list of local diagnostics and every reduction tree/order", "why_tests_cant": "all reduction orders", "anchors": ["src/operator.c:FindCourantNumberDiagnostics", "src/operator.c:UpdateOperatorDiagnostics", "src/swe/swe_petsc.c:ApplyInteriorFlux", "src/tracer/tracer_petsc.c:ApplyTracerInteriorFlux"]}
{"id": "C36", "title": "Roe flux is consistent", "statement": "With equal wet states on both sides the numerical flux equals the physical normal flux.", "quantifier": "every wet state and unit normal", "why_tests_cant": "continuous states", "anchors": ["src/swe/swe_roe_flux_petsc.h:ComputeSWERoeFlux"]}
{"id": "C37", "title": "Roe flux is conservative: swapping sides and reversing the normal negates it", "statement": "The flux computed from the right cell's viewpoint is the negative of the one computed from the left cell's viewpoint, with the same wave speed.", "quantifier": "every pair of states and unit normal", "why_tests_cant": "continuous states", "anchors": ["src/swe/swe_roe_flux_petsc.h:ComputeSWERoeFlux"]}
{"id": "C38", "title": "No water crosses a reflecting wall", "statement": "On a reflecting boundary the mass flux is zero and the tangential momentum flux is zero, for every state and wall orientation.", "quantifier": "every wet state and unit normal", "why_tests_cant": "continuous states", "anchors": ["src/swe/swe_petsc.c:ApplyReflectingBC", "src/swe/swe_roe_flux_petsc.h:ComputeSWERoeFlux"]}
{"id": "C39", "title": "Flux and Courant evaluation is defined on every state the operator evaluates", "statement": "Interior and boundary fluxes never divide by zero (produce NaN): depth sums are positive wherever the Roe flux result is used, including in accumulated boundary fluxes.", "quantifier": "every pair of non-negative depths incl. dry-dry", "why_tests_cant": "requires all wet/dry combinations", "anchors": ["src/swe/swe_petsc.c:ApplyInteriorFlux", "src/swe/swe_petsc.c:ApplyBoundaryFlux", "src/swe/swe_roe_flux_petsc.h"]}
{"id": "C40", "title": "The entropy-fixed wave speeds dominate the originals", "statement": "The corrected characteristic speeds are at least the absolute originals and equal to them outside the sonic region, so numerical dissipation never becomes negative.", "quantifier": "every pair of states", "why_tests_cant": "continuous states", "anchors": ["src/swe/swe_roe_flux_petsc.h:ComputeSWERoeFlux"]}
{"id": "C41", "title": "Interior fluxes conserve water volume and momentum globally", "statement": "For any mesh, the area-weighted sum over owned cells of the interior flux contribution is zero in serial; in parallel, edges between processes contribute equal and opposite amounts on the two owners, so the global sum is zero.", "quantifier": "every mesh connectivity, geometry, state and partition", "why_tests_cant": "arbitrary meshes and partitions", "anchors": ["src/swe/swe_petsc.c:ApplyInteriorFlux", "src/swe/swe_petsc.c:ApplyBoundaryFlux"]}
{"id": "C42", "title": "Total water volume changes only by boundary flux and sources", "statement": "Over any number of explicit Euler steps, the change in total water volume equals the accumulated boundary mass flux plus accumulated water sources.", "quantifier": "every mesh, run length, state, source history", "why_tests_cant": "unbounded run length", "anchors": ["src/rdysetup.c:OperatorRHSFunction", "src/swe/swe_petsc.c", "src/operator.c:ApplyPetscOperator"]}
{"id": "C43", "title": "Hydrostatic reconstruction preserves a lake at rest", "statement": "With still water at uniform surface elevation over any bed, the well-balanced operator produces zero net flux divergence on every interior cell, including wet/dry fronts.", "quantifier": "every bed topography and water level", "why_tests_cant": "all beds", "anchors": ["src/swe/swe_petsc.c:ApplyInteriorFluxHR", "src/swe/swe_petsc.c"]}
{"id": "C44", "title": "Semi-implicit friction never reverses or amplifies the momentum", "statement": "The friction update multiplies the predicted momentum by a factor in (0,1], for every roughness, depth, velocity and time step, and the direction of the momentum is kept.", "quantifier": "every wet state, roughness and dt", "why_tests_cant": "continuous parameters", "anchors": ["src/swe/swe_petsc.c:ApplySourceSemiImplicit"]}
{"id": "C45", "title": "Implicit XQ2018 friction solves the implicit equation", "statement": "The updated discharge satisfies the implicit friction equation exactly and friction never reverses or amplifies the flow; with zero roughness it is the frictionless update.", "quantifier": "every state, roughness, dt", "why_tests_cant": "continuous parameters", "anchors": ["src/swe/swe_petsc.c:ApplySourceImplicitXQ2018"]}
{"id": "C46", "title": "Uniform tracer concentration stays uniform", "statement": "If all cells share the same concentration then the tracer mass flux through each edge is that concentration times the water mass flux, in both Riemann solvers.", "quantifier": "every wet state pair, number of tracers, concentration", "why_tests_cant": "continuous states and any number of tracers", "anchors": ["src/tracer/tracer_roe_flux_petsc.h:ComputeTracerRoeFlux", "src/tracer/tracer_roe_flux_petsc.h:ComputeTracerUpwindRoeFlux"]}
{"id": "C47", "title": "Upwind tracer flux carries the donor cell's concentration", "statement": "The tracer flux of the upwind solver is the water flux times the concentration of the cell the water leaves; it is conservative under side swap.", "quantifier": "every state pair", "why_tests_cant": "continuous states", "anchors": ["src/tracer/tracer_roe_flux_petsc.h:ComputeTracerUpwindRoeFlux"]}
{"id": "C48", "title": "CPU (PETSc) and CEED backends compute the same fluxes, sources and right-hand side", "statement": "For the same states the two backends use the same fluxes at interior edges (with and without hydrostatic reconstruction; water and tracers) and at boundaries, the same friction, and hence the same right-hand side.", "quantifier": "every state pair incl. wet/dry fronts", "why_tests_cant": "all states incl. exact thresholds", "anchors": ["src/swe/swe_roe_flux_ceed.h", "src/swe/swe_fluxes_ceed.h", "src/tracer/tracer_roe_flux_ceed.h", "src/tracer/tracer_roe_flux_petsc.h", "src/swe/swe_petsc.c"]}
{"id": "C49", "title": "Second-order reconstruction creates no new extrema", "statement": "Limited face values lie between the two adjacent cell values (minmod: between the cell value and the midpoint) and depths stay non-negative; equal neighbours give back the cell value.", "quantifier": "every pair of cell values and gradients, both limiters", "why_tests_cant": "continuous inputs", "anchors": ["src/operator_fluxes_ceed.c:LimitSlope", "src/operator_fluxes_ceed.c:ReconstructFaceValues"]}
{"id": "C50", "title": "Least-squares gradients are exact for linear fields", "statement": "On any cell whose neighbour offsets span the plane, the gradient of a linear field is computed exactly and constants get a zero gradient.", "quantifier": "every neighbour configuration and linear field", "why_tests_cant": "arbitrary stencils", "anchors": ["src/operator_fluxes_ceed.c:PrecomputeLSGradCoeffs", "src/operator_fluxes_ceed.c:ComputeLeastSquaresGradients"]}
{"id": "C51", "title": "Volume/free-surface relation inverts the planar-bed depth", "statement": "For every triangle with sorted vertex elevations and mean depth, the computed free-surface elevation reproduces the mean depth over the planar bed, lies above the lowest vertex and is monotone in the depth.", "quantifier": "every elevations triple and depth", "why_tests_cant": "continuous inputs with four regimes", "anchors": ["src/swe/swe_well_balancing.h:SWEEtaVertex", "src/operator_fluxes_ceed.c:sort3"]}
{"id": "C52", "title": "Forcing time series lookup brackets the requested time", "statement": "For any time within a dataset the value used is the one of the bracketing interval (or its linear interpolation, which stays within the two samples); after the last sample, the last value; before the first, the first.", "quantifier": "every sorted dataset and time", "why_tests_cant": "arbitrary datasets and times", "anchors": ["src/forcing/rdyforcing_dataset.c:GetCurrentData"]}
{"id": "C53", "title": "Gridded rainfall uses the file that covers the current time", "statement": "Whatever coupling interval is used, the raster/unstructured rainfall applied at time t comes from the hourly file covering t.", "quantifier": "every sequence of query times", "why_tests_cant": "every coupling interval/time sequence", "anchors": ["src/forcing/rdyforcing_dataset.c:SetRasterData", "src/forcing/rdyforcing_dataset.c:SetUnstructuredData"]}
{"id": "C54", "title": "Nearest-neighbour mapping returns a nearest data point", "statement": "The map from mesh cells to data points sends each cell to a data point at minimum distance, for every mesh and point set.", "quantifier": "every mesh cell position and non-empty point set", "why_tests_cant": "arbitrary point sets", "anchors": ["src/forcing/rdyforcing_map.c"]}
{"id": "C55", "title": "Boundary and source data of piecewise-constant datasets persist between updates", "statement": "Between changes of the active sample, the forcing applied to each region or boundary is the active sample's value.", "quantifier": "every sequence of query times", "why_tests_cant": "histories of calls", "anchors": ["src/forcing/rdyforcing_dataset.c:SetHomogeneousData", "src/forcing/rdyforcing.c"]}
{"id": "C56", "title": "Operator composition and named fields behave like a sequence and a map", "statement": "A composite operator applies all its parts once in insertion order; looking up a field after setting it returns it, other fields are unaffected, and all parts see it.", "quantifier": "every sequence of add/set operations", "why_tests_cant": "unbounded histories", "anchors": ["src/petsc_operator.c:PetscOperatorCompositeAddSub", "src/petsc_operator.c:PetscOperatorSetField", "src/petsc_operator.c:PetscOperatorFieldsGet"]}
{"id": "C57", "title": "Refinement maps group fine cells by parent without loss", "statement": "The coarse-to-fine map lists every fine cell exactly once, grouped by its parent, and refined regions contain exactly the children of the coarse region's cells, so regions keep partitioning the mesh.", "quantifier": "every parent assignment and region partition", "why_tests_cant": "arbitrary refinement patterns", "anchors": ["src/rdyamr.c:DetermineCoarseToFineCellMapping", "src/rdyamr.c:CreateRefinedRegions"]}
{"id": "C58", "title": "Solution transfer under refinement round-trips", "statement": "Prolongating a solution to the refined mesh and restricting it back gives the original, through any number of refinements; prolongation conserves volume when child areas sum to the parent's.", "quantifier": "every refinement sequence and solution", "why_tests_cant": "unbounded refinement sequences", "anchors": ["src/rdyamr.c:ConstructRefineTree", "src/rdyamr.c:RDyPerformAMR"]}
{"id": "C59", "title": "CEED context follows the requested resource", "statement": "After selecting a resource, CEED is enabled iff a non-empty resource was requested last, the context is the one for that resource, at most one context is alive, and every context created is destroyed by the time of finalisation.", "quantifier": "every sequence of selections", "why_tests_cant": "unbounded histories", "anchors": ["src/ceed.c:SetCeedResource", "src/ceed.c:CeedEnabled", "src/ceed.c:CeedContext"]}
{"id": "C60", "title": "Projected cell areas are true polygon areas", "statement": "The 2D cell areas used with hydrostatic reconstruction do not depend on where the cell lies or at which vertex its listing starts, and equal half the absolute cross product of two sides (triangle) or of the diagonals (quad).", "quantifier": "every cell geometry", "why_tests_cant": "continuous geometry", "anchors": ["src/rdymesh.c:RDyMeshOverride2DProjection"]}
{"id": "C61", "title": "Supercritical flow is fully upwinded", "statement": "If all characteristic speeds of the averaged state have one sign (and the sonic correction is inactive), the numerical flux is the physical flux of the upstream cell: nothing downstream influences it.", "quantifier": "every pair of states and normal", "why_tests_cant": "continuous states", "anchors": ["src/swe/swe_roe_flux_petsc.h:ComputeSWERoeFlux"]}
{"id": "C62", "title": "The wave speed reported for the Courant number bounds the speeds used in the flux", "statement": "The maximum wave speed returned with a flux (used for the adaptive time step) is at least every characteristic speed that entered the flux.", "quantifier": "every pair of states and normal", "why_tests_cant": "continuous states", "anchors": ["src/swe/swe_roe_flux_petsc.h:ComputeSWERoeFlux", "src/swe/swe_petsc.c"]}
{"id": "C63", "title": "No water enters through a critical-outflow boundary", "statement": "Whatever the state of the cell, the water flux applied at a critical-outflow boundary edge is directed out of the domain or zero.", "quantifier": "every cell state and unit normal", "why_tests_cant": "continuous states", "anchors": ["src/swe/swe_petsc.c:ApplyCriticalOutflowBC"]}
{"id": "C64", "title": "Concentrations stay within their bounds", "statement": "If all tracer concentrations, including those of water let in by boundaries, lie between two bounds and no cell loses more water in a step than it holds, they lie between the same bounds after any number of transport steps: no negative or spurious peak concentrations.", "quantifier": "every mesh, partition, state, number of steps and tracers", "why_tests_cant": "continuous states and unbounded runs", "anchors": ["src/tracer/tracer_roe_flux_petsc.h:ComputeTracerUpwindRoeFlux", "src/tracer/tracer_petsc.c:ApplyTracerInteriorFlux"]}
{"id": "C65", "title": "Transport conserves the mass of every tracer", "statement": "The total mass of a tracer changes in a run without tracer sources only by what crosses open boundaries; with reflecting boundaries it never changes, however the mesh is partitioned.", "quantifier": "every mesh, partition, state, number of steps and tracers", "why_tests_cant": "unbounded runs, all partitions", "anchors": ["src/tracer/tracer_petsc.c:ApplyTracerInteriorFlux", "src/tracer/tracer_petsc.c:ApplyTracerBoundaryFlux"]}
{"id": "C66", "title": "Sediment exchange with the bed", "statement": "In wet cells each sediment class gains erosion (linear in the excess of bed shear stress over the critical stress) and loses deposition (settling velocity times concentration, reduced by stress); external sources are added in all cells, in the same way by both backends; sediment never becomes negative by exchange.", "quantifier": "every cell state, roughness, source", "why_tests_cant": "continuous states", "anchors": ["src/tracer/tracer_petsc.c", "src/tracer/tracer_sources_ceed.h"]}
{"id": "C67", "title": "Tracer runs use each cell's own roughness", "statement": "In a run with tracers the friction and the bed stress of a cell are computed with the Manning coefficient set for that cell, on any number of processes.", "quantifier": "every partition", "why_tests_cant": "depends on how the mesh is divided", "anchors": ["src/tracer/tracer_petsc.c", "src/swe/swe_petsc.c"]}
{"id": "C68", "title": "The configured slope limiter is the one used", "statement": "In a second-order run the limiter applied is the one the user asked for: -van_leer, then no_limiter (file or option), then numerics.limiter, in both backends.", "quantifier": "every combination of the settings, both backends", "why_tests_cant": "needs all combinations of options on both backends, and the limiter is not visible in the output", "anchors": ["src/swe/swe_petsc.c:CreatePetscSWEInteriorFluxOperator", "src/operator.c:CreateOperator", "src/operator_fluxes_ceed.c:LimitSlope"]}
{"id": "C69", "title": "Bradford-Sanders well balancing is refused where it is not implemented", "statement": "A configuration with well_balancing bradford_sanders_2002 is refused with sediment and with the PETSc backend, and accepted with the CEED backend.", "quantifier": "every sequence of setups in a process, both backends, any number of sediment classes", "why_tests_cant": "depends on the global CEED state left by earlier setups of the process", "anchors": ["src/yaml_input.c:ValidateConfig", "src/rdysetup.c:OverrideParameters", "src/operator.c:CreateOperatorSubOperators"]}
{"id": "C70", "title": "Still water stays at rest with Bradford-Sanders well balancing", "statement": "With well_balancing bradford_sanders_2002 a horizontal water surface at rest has no mass flux across any interior edge.", "quantifier": "every bed, water level and edge direction", "why_tests_cant": "continuous beds and levels", "anchors": ["src/swe/swe_roe_flux_ceed.h:SWERiemannFlux_Roe", "src/swe/swe_fluxes_ceed.h:SWEFlux", "src/swe/swe_well_balancing.h:SWEEtaVertex"]}
{"id": "C71", "title": "Rainfall reaches the cells it is meant for", "statement": "Applying a rainfall dataset sets the water source of exactly the owned cells of the region (or domain) it is given for to the dataset's value at that time, and leaves all other sources alone.", "quantifier": "every dataset kind, number of regions, cells per region and time", "why_tests_cant": "depends on the arrangement of the regions over processes", "anchors": ["src/forcing/rdyforcing.c:RDyApplyForcing", "src/rdydata.c:SetRegionalSourceComponent"]}
{"id": "C72", "title": "Boundary datasets drive the boundary they are given for", "statement": "A list of boundary datasets is matched to boundaries by ID, every boundary with a dataset of its ID gets that dataset, and a single dataset drives the one Dirichlet boundary.", "quantifier": "every list of boundaries and datasets", "why_tests_cant": "combinatorially many ID lists", "anchors": ["src/forcing/rdyforcing.c:DoPostprocessForBoundaryMultiHomogeneousDataset", "src/forcing/rdyforcing.c:FindDirichletBCID"]}
{"id": "C73", "title": "Results do not depend on the number of processes", "statement": "One step of the explicit scheme on a mesh divided among any number of processes, with any local numbering, edge order and edge orientation, gives every cell the state it would get on a single process.", "quantifier": "every mesh, division, local numbering, orientation of edges, state, source and boundary data", "why_tests_cant": "needs all partitions of all meshes; a test compares a few process counts on one mesh, and only up to rounding", "anchors": ["src/swe/swe_petsc.c:ApplyInteriorFlux", "src/swe/swe_petsc.c:ApplyBoundaryFlux", "src/operator.c:ApplyCeedOperator", "src/operator_fluxes_ceed.c", "src/rdymesh.c"]}
{"id": "C74", "title": "Water depths stay non-negative", "statement": "A time step does not make a water depth negative: a dry cell never ends a step with a negative depth, and a state with non-negative depths has a successor with non-negative depths provided the time step respects the Courant condition that RDycore reports and can adapt to.", "quantifier": "for all meshes, divisions among processes, states, boundary conditions, friction methods, with or without hydrostatic reconstruction; for every dry cell and every time step; for every bound on the Courant number", "why_tests_cant": "a test runs a few scenarios at a few Courant numbers; that no time step empties a dry cell, and that no Courant bound protects moving water, are statements about all of them", "anchors": ["src/swe/swe_roe_flux_petsc.h:ComputeSWERoeFlux", "src/swe/swe_petsc.c:ApplyInteriorFlux", "src/swe/swe_petsc.c:ApplyBoundaryFlux", "src/rdyadvance.c"]}
{"id": "C75", "title": "Boundary edges keep their identity across the API, the operators and the time series", "statement": "For a boundary with edges e_0, ..., e_{n-1}: position i in the arrays of RDyGetBoundaryEdge*Centroids, RDyGetBoundaryCell*Centroids and RDyGetBoundaryCellNaturalIDs refers to e_i and to the cell next to it; values passed to RDySetFlowDirichletBoundaryValues at position i are used outside e_i, with that cell inside, by the PETSc and by the CEED operator; and the flux recorded in the boundary-flux time series for e_i is the flux through e_i. A boundary index out of range or an array of another size is an error.", "quantifier": "for all meshes, boundaries, ownership of edges, values and fluxes", "why_tests_cant": "Serial tests own every edge; the positions differ only on processes that see boundary edges of other processes, and depend on the numbering chosen by the partitioner.", "anchors": ["src/rdydata.c:24-45", "src/rdydata.c:408-504", "src/swe/swe_petsc.c:541-573", "src/operator_fluxes_ceed.c:446-560", "src/operator.c:925-960", "src/rdysetup.c:440-500"]}
{"id": "C76", "title": "Results do not depend on the coordinate axes", "statement": "Turning, mirroring or shifting the coordinate axes in which a mesh, a state, sources and boundary values are given turns, mirrors or leaves unchanged the computed rates of change, and measuring elevations from another level changes nothing; this holds for the geometry computed from the coordinates (edge normals, lengths, bed slopes), for the fluxes and sources of both backends, with and without hydrostatic reconstruction, and for the second-order scheme.", "quantifier": "for all rotations, reflections and shifts, meshes, boundary conditions, friction methods, sources and states", "why_tests_cant": "Tests use meshes aligned with the axes and compare with stored results; an error that depends on the direction of an edge (a swapped sine and cosine, a sign, a missing component) cancels on them. The claim quantifies over all directions.", "anchors": ["src/swe/swe_roe_flux_petsc.h:15-131", "src/swe/swe_petsc.c:215-932", "src/swe/swe_petsc.c:1000-1161", "src/swe/swe_fluxes_ceed.h:60-263", "src/swe/swe_sources_ceed.h:37-152", "src/rdymesh.c:632-858", "src/operator_fluxes_ceed.c:884-1206"]}
{"id": "C77", "title": "Uniform flow on a slope obeys Manning's equation", "statement": "In a cell whose neighbours (and prescribed boundary values) are in the same state, the depth changes only by the water sources (rain of intensity r raises it by r per unit time), gravity changes the momentum by -g h times the gradient of the bed, so that water at rest starts to move downhill, and the momentum of a wet cell stays the same exactly if the flow satisfies Manning's equation n^2 |u| u / h^(4/3) = -grad z, whatever the length of the time step (for XQ2018: where the friction is not negligible according to its threshold).", "quantifier": "for all meshes with closed cells, states, slopes, roughness values, time steps and water sources, and both friction methods", "why_tests_cant": "Uniform flow is the standard check of a hydraulic model, but a run only shows it for one slope, one roughness and one time step and up to a tolerance that hides the dependence on the time step; the equivalence with Manning's equation for all of them is a statement about the scheme.", "anchors": ["src/swe/swe_petsc.c:244-310", "src/swe/swe_petsc.c:541-607", "src/swe/swe_petsc.c:704-932", "src/swe/swe_roe_flux_petsc.h:15-131"]}
{"id": "C78", "title": "Each CEED kernel reads and writes the fields it is meant to", "statement": "A CEED kernel (Q-function) finds its arguments by position. In every configuration that is accepted, each argument used by the kernel chosen for the interior edges, for a boundary, for the sources or for the water surface at vertices is the field registered at that position, with enough components, and every component of every registered output is written.", "quantifier": "for all numbers of sediment classes, with or without salinity and heat, all well-balancing methods, orders, Riemann solvers, source methods and boundary conditions", "why_tests_cant": "The registration of the fields and the kernels are in different files and are tied together only by the order of calls; a mismatch compiles, does not crash and shows up in the few configurations for which a number happens to be compared.", "anchors": ["src/operator_fluxes_ceed.c:44-162", "src/operator_fluxes_ceed.c:290-452", "src/operator_fluxes_ceed.c:1218-1257", "src/operator_fluxes_hydro_recon_ceed.c:31-96", "src/operator_sources_ceed.c:19-137", "src/swe/swe_fluxes_ceed.h:46-261", "src/tracer/tracer_fluxes_ceed.h:25-200"]}
{"id": "C79", "title": "With CEED the reported Courant number covers all edges", "statement": "After any number of evaluations of the right-hand side with CEED, the Courant number reported (and used to adapt the time step) is the largest one of all wet edges, interior and boundary, for the state and the time step of the last evaluation.", "quantifier": "for all accepted configurations, all sequences of evaluations and all states of the edges", "why_tests_cant": "A number that is too small is a plausible number; only the stability of long runs with adaptive steps would suffer, and a test of one scheme says nothing about another, which uses a different operator.", "anchors": ["src/operator.c:502-514", "src/operator.c:775-840", "src/operator_fluxes_hydro_recon_ceed.c:84-164", "src/operator_fluxes_ceed.c:1218-1432", "src/swe/swe_fluxes_hydro_recon_ceed.h:60-160", "src/swe/swe_ceed.c:25-45", "src/rdyadvance.c:302-327"]}
{"id": "C80", "title": "The kernels' arrays have room for all tracers", "statement": "Every configuration that passes the check of the number of sediment classes can be computed without writing or reading beyond the ends of the arrays of fixed size in the tracer kernels.", "quantifier": "for all values of MAX_NUM_SEDIMENT_CLASSES and all configurations", "why_tests_cant": "An overrun by one or two entries of an array on the stack or inside a structure usually goes unnoticed, and only the largest configurations have it.", "anchors": ["CMakeLists.txt:12-22", "src/yaml_input.c:928-930", "src/tracer/tracer_types_ceed.h:24-26", "src/tracer/tracer_sources_ceed.h:36-149", "src/tracer/tracer_roe_flux_ceed.h:18-160"]}
{"id": "C81", "title": "The output has exactly the requested fields", "statement": "A list of output fields is accepted exactly if each name is that of an existing field (with the number of an existing sediment class). Each step of the output then has exactly one dataset for each requested field, even if it was requested twice, which holds that component of that vector (solution, primitive variables, sources, or their means), no other dataset, and the XMF file describes exactly these datasets. Means are computed if and only if one of their fields is written.", "quantifier": "for all numbers of sediment classes and other tracers and all lists of requested names", "why_tests_cant": "Names with class numbers are composed at run time in three places and compared as strings; tests use a handful of names, and a field written from the wrong component still is a plausible picture.", "anchors": ["src/yaml_input.c:877-886", "src/yaml_input.c:1118-1196", "src/rdysetup.c:1405-1482", "src/xdmf_output.c:12-140", "src/xdmf_output.c:277-296", "src/xdmf_output.c:396-411"]}
{"id": "C82", "title": "Velocities and concentrations in the output belong to the solution written with them", "statement": "The velocities and concentrations in the output of a step are momentum and tracer mass divided by depth (0 in dry cells) of the solution at that step, which is what depth and momentum in the same file are.", "quantifier": "for all trajectories of the solution, all steps, both backends, with and without sediment and hydrostatic reconstruction", "why_tests_cant": "The difference of one step is small in smooth flow, and a test has to know the exact solution at each step to see it.", "anchors": ["src/swe/swe_petsc.c:787-791", "src/tracer/tracer_petsc.c:715-725", "src/tracer/tracer_petsc.c:1070-1148", "src/swe/swe_sources_ceed.h:156-160", "src/tracer/tracer_sources_ceed.h:136-144", "src/operator.c:262-299", "src/operator.c:656-672"]}
{"id": "C83", "title": "Tracers move with the water over a step in the bed", "statement": "With hydrostatic reconstruction, tracers behave as without it: the right-hand side is defined for all non-negative depths; a uniform concentration stays uniform; the mass of each tracer changes only by what crosses the boundary; with the upwind solver concentrations stay between their extremes. Still water over any bed moves no tracer and stays still, a step higher than the water surface lets neither water nor tracer through, and both backends compute the same.", "quantifier": "for all meshes, partitions, beds, depths, velocities, numbers and concentrations of tracers, both solvers, any number of steps", "why_tests_cant": "Tests of hydrostatic reconstruction use clean water and smooth beds; waterfalls, dry ledges and tracers are seldom combined.", "anchors": ["src/tracer/tracer_petsc.c:792-1045", "src/tracer/tracer_fluxes_hydro_recon_ceed.h:43-148", "src/operator_fluxes_hydro_recon_ceed.c:40-50"]}
{"id": "C84", "title": "Tracers do not alter the flow", "statement": "Adding tracers to a run does not change water depths and momenta: the flow components of the right-hand side do not depend on the number of tracers, their concentrations, their solver or their sources, and are those of a run without tracers.", "quantifier": "for all meshes, states, boundary conditions, sources, roughnesses, with and without hydrostatic reconstruction", "why_tests_cant": "Flow and tracers are computed together by code of their own, a copy of the flow code; a difference in a threshold or an index shows only in particular states.", "anchors": ["src/tracer/tracer_petsc.c:405-525", "src/tracer/tracer_petsc.c:617-735", "src/tracer/tracer_petsc.c:807-986", "src/tracer/tracer_petsc.c:1070-1154", "src/swe/swe_petsc.c:100-330"]}
{"id": "C85", "title": "Second-order runs do not depend on the division of the mesh", "statement": "With second-order reconstruction the gradients of ghost cells are those of the process that owns them, the states on both sides of every interior edge are those of the undivided mesh, and so is the flux divergence of every cell; a sequence of states is a run on one division if and only if it is a run on another. Steps are defined for all non-negative depths, the volume of water changes only by sources and boundaries, where gradients vanish (and on every strip of cells) the run is a first-order run, and both backends compute the same.", "quantifier": "for all meshes, divisions among any number of processes, numberings, orders and orientations of edges, states, limiters, friction methods and numbers of steps", "why_tests_cant": "A ghost cell lacks most of its neighbours, so that its own gradient is wrong; whether the communicated one replaces it everywhere shows only at partition boundaries and with particular numberings of cells.", "anchors": ["src/operator_fluxes_ceed.c:884-981", "src/operator_fluxes_ceed.c:998-1206", "src/operator_fluxes_ceed.c:1217-1390", "src/swe/swe_petsc.c:98-212", "src/swe/swe_muscl_fluxes_ceed.h:43-96", "src/operator.c:541-600"]}
{"id": "C86", "title": "Hourly data files are named after consecutive hours", "statement": "The files of a raster or unstructured dataset are named after the start date and then after each following hour, through ends of days, months and years and leap days; the file in use at a time is that of the hour which contains it, and no two hours share a name. The time stamps of output follow the start date in the same way.", "quantifier": "for all valid start dates, numbers of files and times", "why_tests_cant": "Calendar carry at month ends, leap years and centuries occurs on particular dates only; a test of a few days in summer passes with wrong leap rules, and a time zone with daylight saving passes it in UTC.", "anchors": ["src/forcing/rdyforcing_dataset.c:108-130", "src/forcing/rdyforcing_dataset.c:165-213", "src/forcing/rdyforcing_dataset.c:255-276"]}
{"id": "C87", "title": "The dataset described on the command line is the one used", "statement": "The program selects a rainfall (boundary) dataset if and only if the options describe exactly that one completely; incomplete or contradictory descriptions are refused, and with no description no dataset is used. A spatial map is read from and written to the files that are named.", "quantifier": "for all combinations of options and lengths of lists", "why_tests_cant": "There are hundreds of combinations of options; those that are silently ignored produce a run without rain rather than a failure.", "anchors": ["src/forcing/rdyforcing.c:303-470", "src/forcing/rdyforcing.c:472-620"]}
{"id": "C88", "title": "Mesh elements get the values that the data files hold for their place", "statement": "From conforming data files every mesh element gets the row of the data point nearest to it (unstructured data), or the value of the pixel that contains it in m/s (rasters), also from later files; headers that contradict the contents or the first file are refused; a map written by one run is read back by another with any number of processes.", "quantifier": "for all files, meshes, positions, strides, divisions of the mesh and maps", "why_tests_cant": "Wrong offsets and strides agree with right ones for one value per point or the first rows; a map read with another number of processes is wrong only if natural order is ignored; files that do not conform need hostile inputs.", "anchors": ["src/forcing/rdyforcing_dataset.c:132-230", "src/forcing/rdyforcing_dataset.c:255-370", "src/forcing/rdyforcing_map.c:42-187", "src/rdydata.c:559-606"]}
{"id": "C89", "title": "The configuration that is read is the text of the file with its placeholders replaced", "statement": "Every process parses the text of the configuration file in which each occurrence of ${PETSC_ID_TYPE} is replaced by the type of indices and nothing else is changed; no byte outside of the buffers is read or written. Output files are named after the configuration file without its suffix, in the output directory.", "quantifier": "for all contents of the file, including those without or with many placeholders, zero bytes and no bytes, and all names of files", "why_tests_cant": "Whether sizes and offsets fit depends on number and position of the placeholders and on the lengths of both texts; a replacement of the same length hides errors of offsets.", "anchors": ["src/yaml_input.c:1475-1549", "src/yaml_input.c:1552-1567", "src/yaml_input.c:1571-1591", "src/rdyadvance.c:66-79"]}
{"id": "C90", "title": "Options of the command line take precedence over the configuration, which determines the rest", "statement": "A viewer, an interval of output, a batch size and a format of checkpoints given as options are used; what is not given follows the configuration file; other values of the format are refused. The file of CGNS output is the one named by the configuration. A simulation in a process that has run another one behaves as in a process of its own.", "quantifier": "for all configurations and contents of the options database", "why_tests_cant": "Options combine freely, and an option that the program sets itself is seen only by a second simulation in the same process; names are cut off only from a certain length on.", "anchors": ["src/yaml_input.c:1379-1467"]}
{"id": "C91", "title": "The sources of manufactured solutions are the residual of the equations", "statement": "For a manufactured solution whose given derivatives are its derivatives, the sources of water, momentum and sediment that are applied are what the solution leaves in the shallow-water equations with bed slope and Manning friction, and in the transport equations with erosion and deposition, at every point with water. With these sources the right-hand side tends to the time derivative of the solution as the step tends to zero, for each friction method. The shipped studies give the right derivatives.", "quantifier": "for all differentiable solutions, beds and roughness coefficients, all points with positive depth, all times and both friction methods", "why_tests_cant": "A wrong term of the residual changes convergence rates only where it is large compared with the error of the discretisation; the terms are long products of functions of three variables.", "anchors": ["src/rdymms.c:489-706"]}
{"id": "C92", "title": "A convergence study measures the error of the discretisation", "statement": "The run starts with the manufactured solution and uses its sources in the middle of each step, in every cell. The three norms are those of the difference of the computed and the manufactured solution, for every number of processes, and zero exactly if there is none. Errors proportional to a power of the cell size are reported with this power as the rate; the study passes exactly if every rate exceeds the expected one of its component. Every level ends at the time whose manufactured solution it is compared with.", "quantifier": "for all meshes, regions, divisions among processes, numbers of levels, rates and accepted time settings", "why_tests_cant": "Cells, components and levels are numbered in several ways that agree for a single region in seconds without tracers, which is what the shipped studies use.", "anchors": ["src/rdymms.c:138-153", "src/rdymms.c:352-486", "src/rdymms.c:847-905", "src/rdymms.c:920-1002", "src/rdymms.c:1004-1040"]}
{"id": "C93", "title": "What is asked for is written throughout the run, once per step", "statement": "At every step that the solver reports, each kind of result that the configuration asks for (output fields, messages in the log, checkpoints, time series) is handled by exactly one registered monitor, and nothing is written that was not asked for. This holds for any number of calls of RDyAdvance, after a restart (continued or reinitialised), after a checkpoint is read, after refinement, and for calls after the end of the run; no call uses something that was already destroyed.", "quantifier": "for all configurations of output, checkpoints and time series, all sequences of advances, refinements and reads of checkpoints, all numbers of steps", "why_tests_cant": "Monitors are registered in several places under conditions on the step, the restart and the refinement; the combinations and the order of calls are unbounded, and a missing or doubled registration gives a run that ends normally.", "anchors": ["src/rdyadvance.c:177-236", "src/rdyadvance.c:261-383", "src/checkpoint.c:78-138", "src/checkpoint.c:243-255", "src/time_series.c:252-266", "src/rdyamr.c:693-708", "src/rdysetup.c:1174-1216"]}
{"id": "C94", "title": "Refinement changes the mesh and nothing else", "statement": "RDyRefine refines the cells that were marked and no others. The time, the step number and the time step of the run are unchanged; every fine cell has the Manning coefficient, the sources and the elevation of the coarse cell that contains it, whether they came from the configuration, a file or a call; and the forcings go on being applied.", "quantifier": "for all marks, all meshes and refinements, all regions, materials and sources, all values set by calls", "why_tests_cant": "Refinement tears down and rebuilds the operator, the solver and the regions; what is forgotten is a value that is silently back at its initial setting, which depends on the calls made before.", "anchors": ["src/rdyamr.c:11-90", "src/rdyamr.c:160-190", "src/rdyamr.c:482-715", "src/rdysetup.c:505-590", "src/rdysetup.c:656-702", "src/forcing/rdyforcing.c:602-670", "src/forcing/rdyforcing.c:685-760"]}
{"id": "C95", "title": "Everything is released, nothing is used after its release", "statement": "A program that creates a context, sets it up, advances, marks and refines cells any number of times and destroys the context accesses no released object, releases no object twice and owns nothing at the end. The same holds for the operator of every backend, the viewers and time series of a run and the forcing with all its kinds of data and any number of hourly files.", "quantifier": "for all configurations (ensemble, log file, sediment, salinity, backend, well balancing, reconstruction, output, observations), all sequences of calls, all kinds and numbers of data files", "why_tests_cant": "A leak shows only in a long run and a use after release only on some platforms; both depend on the order of calls and on combinations of features of which a test suite runs a few.", "anchors": ["src/rdycore.c:158-301", "src/rdyamr.c:46-61", "src/rdyamr.c:161-212", "src/rdyamr.c:451-716", "src/operator.c:348-493", "src/rdydm.c:82-292", "src/rdyadvance.c:30-140", "src/time_series.c:1-120", "src/forcing/rdyforcing.c:230-600", "src/yaml_input.c:1319-1377", "src/yaml_input.c:1844-1897"]}
{"id": "C96", "title": "The tables of the mesh describe the mesh", "statement": "On every process, every cell has exactly its edges and vertices, every vertex exactly its edges and cells, every edge its two vertices and its one or two cells; the tables agree with each other and no array is overrun, whatever mixture of triangles and quadrilaterals the mesh has. The same vertex has the same global number on all processes and different vertices have different ones; the coordinates written with the output are those of the vertices; the natural number of a cell is its place in the mesh file.", "quantifier": "for all meshes and all their distributions to any number of processes", "why_tests_cant": "The arrays are as wide as the widest cell of any process; an overrun or a wrong offset needs a mesh whose parts differ, and wrong numbers of vertices show only in output of runs with several processes.", "anchors": ["src/rdymesh.c:12", "src/rdymesh.c:45-158", "src/rdymesh.c:225-403", "src/rdymesh.c:427-520", "src/rdymesh.c:864-1039", "src/rdymesh.c:1329-1398"]}
{"id": "C97", "title": "A restarted run continues the interrupted one", "statement": "A run restarted from a checkpoint of another run takes the same steps at the same times as the run that was never interrupted, with the same step sizes, sees the same forcing, and has the same solution after every step; it ends at the same time. This holds for any checkpoint on disk, with fixed and adaptive steps, on any number of processes.", "quantifier": "for all runs (any right-hand side, Courant numbers and forcing), all checkpoints, all later calls of RDyAdvance", "why_tests_cant": "A checkpoint holds four numbers and one vector; everything else is set up anew. Tests compare one restart at one place with one configuration, whereas differences arise from where the checkpoint lies in its interval, from what was measured before it and from what the forcing remembers.", "anchors": ["src/checkpoint.c:49-137", "src/checkpoint.c:153-234", "src/checkpoint.c:259-317", "src/rdyadvance.c:261-400", "src/rdysetup.c:1174-1216", "src/rdysetup.c:1548-1575", "src/forcing/rdyforcing_dataset.c:295-373"]}
{"id": "C98", "title": "The refinement program refines where its data say", "statement": "The program for runs with adaptive refinement uses the refinement data named by its options, or stops if they are incomplete. Before each advance it reads the file of the time at which the advance begins, and marks exactly the cells for which that file has a positive value (via the cell of the base mesh they descend from) and whose area exceeds 1/8; a missing or wrongly sized file ends the run. No part of the domain is refined without a bound.", "quantifier": "for all options, start dates, coupling intervals, numbers of advances, meshes, contents of files and all ways in which the mesh library splits cells", "why_tests_cant": "The numbering of cells changes with each refinement, and the values of a file are brought to the current mesh by products of matrices; the date is advanced by the program and not by the clock. A test runs a few refinements of one mesh with one interval.", "anchors": ["driver/amr.c:22-31", "driver/amr.c:34-75", "driver/amr.c:77-152", "driver/amr.c:154-239", "src/rdydata.c:627-680", "src/rdyamr.c:46-90", "src/rdyamr.c:603-621"]}
{"id": "C99", "title": "The Fortran interface passes calls on faithfully", "statement": "Calling a procedure of the Fortran module calls the C function of the same name with the same arguments in the same order: objects and vectors by their handles, numbers unchanged except that boundaries are counted from 1 in Fortran and from 0 in C, results in the caller's variables, names without the blanks that Fortran adds. This holds for 32-bit and 64-bit integers. Constants of the module have the values of those in C.", "quantifier": "for all procedures of the module, all arguments, both sizes of integers, all names and all previous contents of memory", "why_tests_cant": "The two sides are compiled separately and the linker compares only names: a wrong kind, a missing `value` or a shifted argument gives undefined behaviour that may pass unnoticed on one platform. The Fortran tests call a part of the procedures on one platform.", "anchors": ["src/f90-mod/rdycore.F90:34-50", "src/f90-mod/rdycore.F90:52-463", "src/f90-mod/rdycore.F90:465-1010", "include/rdycore.h:13-141", "src/rdycore.c:56-62", "src/rdycore.c:86-110", "src/rdycore.c:175-186"]}
{"id": "C100", "title": "A run with manufactured solutions is fed with the manufactured solution", "statement": "In a run of the program for manufactured solutions the vertices of the mesh lie on the manufactured bathymetry; before every step the values at every edge of every boundary, and the sources in every owned cell, are those of the manufactured solution in the middle of the step, in every component; the roughness of every cell is the manufactured one; the result is compared with the manufactured solution at the time reached; the runs of a convergence study have the levels of refinement that are asked for, and evaluate no expression that has been released.", "quantifier": "for all manufactured fields, meshes, boundaries, numbers of sediment classes, times, steps, levels and numbers of refinements", "why_tests_cant": "A convergence test shows that the rate is high enough for one solution on one mesh; a value at a wrong place, time or component at a few edges changes the rate little, and released memory usually still holds the old expression.", "anchors": ["src/rdymms.c:23-69", "src/rdymms.c:108-153", "src/rdymms.c:193-204", "src/rdymms.c:708-845", "src/rdymms.c:920-1002", "src/rdymms.c:1043-1066", "src/yaml_input.c:1804-1862"]}
{"id": "C101", "title": "The option -preload does not change results", "statement": "A run with the option -preload, which is meant for timings, has after every call of RDyAdvance the time, step number, solution and outputs of the same run without the option.", "quantifier": "for all time steppers, right-hand sides, forcings, step sizes, coupling intervals and numbers of calls", "why_tests_cant": "Timings are compared, not results; a test with an interval that is a multiple of the step shows no difference.", "anchors": ["src/rdyadvance.c:238-257", "src/rdyadvance.c:345-364", "src/rdysetup.c:1118-1140", "src/time_series.c:464-563"]}
{"id": "C102", "title": "Every name in a configuration is resolved or refused", "statement": "The regions of a run are the cell sets of the mesh, with the names that the configuration gives to their IDs; every region gets exactly the initial conditions and the source that the configuration names for it, for every tracer that is on; anything the configuration says that cannot be resolved (unknown regions or conditions, conditions of the wrong kind, missing or senseless expressions) is refused at set-up, before the run, and the values used are those given.", "quantifier": "for all meshes with cell sets, all tables of regions, conditions, initial conditions and sources, all combinations of physics, all texts of expressions", "why_tests_cant": "Tests use configurations that are right; there are unboundedly many ways to get one wrong, and a mistake that is not refused shows only as a plausible but wrong result.", "anchors": ["src/rdysetup.c:133-279", "src/rdysetup.c:592-702", "src/rdysetup.c:1219-1272", "src/yaml_input.c:1059-1070", "src/yaml_input.c:1318-1376"]}
{"id": "C103", "title": "The Fortran driver gives what the C driver gives", "statement": "A run of rdycore_f90 with a configuration and options goes through the states of the run of rdycore with the same configuration and options and ends if that one ends: its own reading of rainfall and boundary data selects the same datasets, files, mesh maps and values as the library does, and what it sets is what the library sets.", "quantifier": "for all configurations and options, all data files, meshes and decompositions, all numbers of coupling intervals", "why_tests_cant": "The two programs are compared on short runs with constant data at most; differences depend on the date, the time unit, the number of processes, the position of cells and what earlier runs left behind.", "anchors": ["driver/main.F90:153-195", "driver/main.F90:202-388", "driver/main.F90:507-730", "driver/main.F90:735-1232", "driver/main.F90:1456-1592", "src/rdyadvance.c:340-360"]}
{"id": "C104", "title": "A run with tracers gives the same with CEED as with PETSc", "statement": "Choosing the CEED instead of the PETSc backend for a run with tracers changes neither the right-hand side nor the states of the run, with either Riemann solver, with and without hydrostatic reconstruction; and whichever is chosen, fluxes only move water and tracers around, walls let nothing through, and uniform concentrations stay uniform.", "quantifier": "for all meshes on one process, all numbers of tracers, all states, sources, roughnesses, boundary conditions and numbers of steps", "why_tests_cant": "A test compares the backends for a few states of one mesh; the kernels divide, compare with the dry threshold and treat the two sides of an edge differently for thin water, which no finite set of states covers.", "anchors": ["src/tracer/tracer_fluxes_ceed.h", "src/tracer/tracer_fluxes_hydro_recon_ceed.h", "src/tracer/tracer_sources_ceed.h", "src/tracer/tracer_petsc.c", "src/rdysetup.c:1403-1411"]}
{"id": "C105", "title": "The XMF files describe what is in the HDF5 files", "statement": "When a run with XDMF output is over, every XMF file it wrote refers to datasets that exist in the HDF5 files beside it, of the dimensions it states, holding the mesh the step was computed on and the requested fields of that very step; the time it states is the time of the output to seven digits; a restart in the same directory leaves the earlier outputs readable.", "quantifier": "for all sequences of outputs, step intervals, batch sizes, prefixes, dates, requested fields, numbers of tracers and sequences of refinements", "why_tests_cant": "Tests open a few files of one short run; whether a later output erases what an earlier XMF file refers to depends on the interplay of intervals, batches, dates, restarts and refinements over the whole run.", "anchors": ["src/xdmf_output.c:143-434", "src/rdyadvance.c:66-145", "src/rdyamr.c:469-480"]}
{"id": "C106", "title": "Values and geometry in the output belong together, whatever the number of processes", "statement": "Entry k of every field and of every cell attribute in the output, and element k of the topology, belong to the same cell, which is cell k of the mesh file; the files do not depend on how the cells are distributed over processes; and the areas and elevations shown are those the computation uses.", "quantifier": "for all numbers of cells and processes, all distributions, all values, and all meshes of triangles and quadrilaterals", "why_tests_cant": "A test runs on one or two processes and compares with a reference; the mapping to natural order, the division of vectors and the mixture of cell types vary with every mesh and partition.", "anchors": ["src/rdymesh.c:1041-1320", "src/xdmf_output.c:28-103", "src/rdymesh.c:1478-1511", "src/rdysetup.c:1081-1099", "src/rdysetup.c:1506-1512"]}
{"id": "C107", "title": "A run with tracers gives the same results on any number of processes", "statement": "For every division of the mesh among processes, every order in which a process lists its edges and whichever side it sees them from, the right-hand side of all components (water, momentum, tracers) of every cell - and with forward Euler every state computed from it - is that of the undivided mesh; where the undivided problem has a right-hand side so has every process. The CEED backend assembles the same from the contributions of all processes.", "quantifier": "for all meshes, divisions, numberings, states, numbers of tracers, both Riemann solvers, with and without hydrostatic reconstruction", "why_tests_cant": "A test compares one or two partitions of one mesh; a wrong index or an orientation-dependent flux shows only for partitions in which ghosts precede owned cells, or where a front meets an edge seen from the other side.", "anchors": ["src/tracer/tracer_petsc.c:158-310", "src/tracer/tracer_petsc.c:616-737", "src/tracer/tracer_petsc.c:820-960", "src/tracer/tracer_fluxes_ceed.h:25-77", "src/operator.c:501-646"]}
{"id": "C108", "title": "Evaluating the fluxes leaves nothing behind that changes later results", "statement": "The flux operators gather the states of all edges into arrays that they allocate once and use again at every evaluation, and the Roe solver for tracers keeps a matrix from edge to edge. Whatever these arrays hold, an evaluation accesses no array outside its bounds and gives the right-hand side of the edges treated one after the other without memory; two runs that evaluated different states before (or none) give the same vectors afterwards; a NaN stays at the cells of the edge that has no flux; and the vectors of boundary fluxes hold, for the edges of owned cells, the fluxes in the given state, added times the step to the accumulated ones.", "quantifier": "for all meshes (tables), boundaries and conditions, contents of the arrays, sequences of evaluations, numbers of tracers that fit", "why_tests_cant": "A stale entry shows only after a state in which it was left (an edge without second cell, a dry cell, a NaN) and only for an edge that skips the assignment; tests evaluate fresh operators.", "anchors": ["src/swe/swe_petsc.c:7-73", "src/swe/swe_petsc.c:219-316", "src/swe/swe_petsc.c:341-407", "src/swe/swe_petsc.c:507-688", "src/tracer/tracer_petsc.c:17-270", "src/tracer/tracer_petsc.c:404-590", "src/tracer/tracer_roe_flux_petsc.h:17-208"]}
{"id": "C109", "title": "Second-order fluxes are unaffected by the order in which the edges of a process are stored", "statement": "Second-order runs keep, per process, arrays of which one part has a place for every internal edge (coefficients of the gradients) and the other only for owned edges (reconstructed states, fluxes, normals), besides flat arrays of matrices and gradients that are exchanged between processes in two passes. Whatever the arrays hold besides normals and coefficients, an evaluation accesses no array outside its bounds, puts every value at the edge and cell it belongs to, and gives on every process the local vector of the edges treated one after the other; summed over processes this is the second-order flux divergence of the undivided mesh; later evaluations do not depend on earlier ones; and the number by which the packed arrays are allocated is the number of owned internal edges.", "quantifier": "for all meshes (tables), divisions among processes, limiters, contents of the arrays, states, sequences of evaluations", "why_tests_cant": "Packed and unpacked numbers agree as long as a process owns all its internal edges, as in serial tests; a mix-up shows only if an edge owned by another process comes before an owned one.", "anchors": ["src/swe/swe_petsc.c:98-211", "src/swe/swe_petsc.c:409-505", "src/operator_fluxes_ceed.c:866-1210", "src/rdymesh.c:592-605", "src/rdymesh.c:692-711"]}
{"id": "C110", "title": "With CEED, evaluations do not depend on earlier ones, and boundary fluxes are recorded for the edges and steps they belong to", "statement": "With the CEED backend the flux operators are put together once from packed arrays of geometric factors and offsets for the edges a process owns, and then applied at every evaluation of the right-hand side. Building them and applying them any number of times accesses no array outside its bounds; every evaluation gives in each place the flux divergence of the edges treated one by one, whatever was evaluated before; the vector of boundary fluxes holds the flux of the last evaluation; and what the time series records for an edge after some steps is the sum over the steps of the time step times the flux through this edge.", "quantifier": "for all meshes (tables), divisions among processes, boundaries and their conditions, states, sequences of evaluations", "why_tests_cant": "Tests of boundary fluxes use one process, few steps, and compare files with files written by the same code; that vectors are added to instead of overwritten, and that rows are packed by owned edges but read by edge number, shows only over several steps or processes.", "anchors": ["src/operator_fluxes_ceed.c:129-285", "src/operator_fluxes_ceed.c:415-645", "src/operator.c:561-604", "src/operator.c:926-944", "src/time_series.c:464-500"]}
{"id": "C111", "title": "With CEED, sources reach the cells they are meant for, and the right-hand side depends on nothing evaluated before", "statement": "With the CEED backend the source operator is put together once: slopes and offsets packed by owned cell, external sources, Manning coefficients and flux divergences stored by owned number, the solution by local number. For any set of owned cells, building and applying it accesses no array outside its bounds; an evaluation gives every owned cell the right-hand side made of its own slope, state, source, roughness and flux divergence, each place is written by exactly one cell, and primitive variables and recorded sources are those of this evaluation, whatever was evaluated before. On one process the assembled flux and source operators together give the right-hand side of edges and cells treated one by one, hence (away from the states in which the backends differ) that of the PETSc backend; on several processes each cell gets the right-hand side of the undivided problem.", "quantifier": "for all meshes, sets of owned cells, divisions among processes, states, sources, roughness, friction methods, histories of evaluations", "why_tests_cant": "Tests run a handful of meshes on one or few processes with uniform roughness and rain; a mix-up of local and owned numbers, or values left over from an earlier evaluation, need ghost cells between owned cells and different values in each cell to be seen.", "anchors": ["src/operator_sources_ceed.c:111-245", "src/operator_sources_hydro_recon_ceed.c:98-222", "src/operator.c:224-334", "src/operator.c:561-646", "src/swe/swe_sources_ceed.h:104-170"]}
{"id": "C112", "title": "With the PETSc backend, the right-hand side put together from arrays is that of single edges and cells, and still water stays still", "statement": "With the PETSc backend, with or without hydrostatic reconstruction: creating the operators accesses nothing outside the tables of the mesh, and with reconstruction they hold for every cell the mean of the elevations of its corners (or the elevation from the file of cell centres); every evaluation with operators so created accesses nothing outside its arrays, and the right-hand side is that of edges and cells treated one by one on the mesh that the tables describe, the sources being computed from the flux divergence of this evaluation; it depends on step, state, external sources and material properties only, not on earlier evaluations; it leaves the depth and velocities of every owned cell and the external sources used for output; and still water over those bed elevations gets zero in every owned cell.", "quantifier": "for all meshes (tables), boundaries, states, steps, sources, roughness, friction methods, well-balancing settings, histories of evaluations", "why_tests_cant": "Tests run a few meshes with a single kind of boundary; the arrays are indexed by local cell, owned cell, edge, edge of a boundary and vertex, and mixing these up goes unseen where the numberings coincide; leftovers of earlier evaluations appear only in particular sequences of states.", "anchors": ["src/swe/swe_petsc.c:690-983", "src/swe/swe_petsc.c:985-1262", "src/operator_fluxes_petsc.c:17-95", "src/operator.c:194-217", "src/petsc_operator.c:53-60"]}
{"id": "C113", "title": "With CEED and hydrostatic reconstruction, the operators put together from arrays give the divergence of single edges, and still water stays still", "statement": "With the CEED backend and hydrostatic reconstruction: building the flux operators and evaluating them any number of times accesses nothing outside an array and uses no offset that was not set; whatever was evaluated before, an evaluation gives every cell the flux divergence found edge by edge with the mean elevation of the corners of each cell (or that of the file of cell centres), and NaN only if a flux is NaN; on one process the right-hand side with sources is that of edges and cells treated one by one, without the bed slope; a lake at rest over any bed keeps still for both friction methods, with or without regularised velocities; and the vector of Courant numbers of the internal edges holds the Courant numbers of the last evaluation.", "quantifier": "for all meshes (tables), boundaries, bed elevations, states, time steps, histories of evaluations, and values found in outputs that are never written", "why_tests_cant": "The operator registers four outputs, its Q-function writes three; what is then accumulated where depends on positions in lists that no test compares. Tests of still water use one mesh, one friction method and the first evaluation of a fresh operator.", "anchors": ["src/operator_fluxes_hydro_recon_ceed.c:71-257", "src/swe/swe_fluxes_hydro_recon_ceed.h:64-151", "src/swe/swe_sources_hydro_recon_ceed.h:31-76", "src/operator.c:501-646"]}
{"id": "C114", "title": "The second-order CEED run puts its fluxes where they belong, on any number of processes", "statement": "With the CEED backend and the second-order (MUSCL) scheme, the flux operators that are assembled from the tables of the mesh give, on every process and in every evaluation, exactly the flux divergences found edge by edge over the owned edges with states reconstructed from the gradients of the cells' owners; nothing is read or written outside an array, earlier evaluations do not matter, there is no NaN for non-negative depths, and over all processes the entries of a cell add up to its second-order flux divergence on the undivided mesh. The Courant number reported covers the internal edges too.", "quantifier": "all meshes with valid tables, all divisions into processes, all boundary conditions, limiters, states, time steps and sequences of evaluations", "why_tests_cant": "The states pass through a vector in packed order that is addressed by two arrays of offsets, while cells and vertices are addressed by others in the order of all edges; the exchange of gradients between processes precedes every evaluation. Tests run a few meshes and compare end results with tolerances; they cannot cover all numberings of edges, ownerships and histories, and none compares the Courant number of internal edges.", "anchors": ["src/operator_fluxes_ceed.c:1218-1470", "src/operator.c:504-594", "src/swe/swe_muscl_fluxes_ceed.h:43-96", "src/swe/swe_ceed.c:31"]}
{"id": "C115", "title": "Every line of the observation file has the time, place, name and value of one component of one cell", "statement": "After any run from its first step the file of observations holds a header and then, for each observed step in turn, for each site in the order of the configuration and for each component, one line with the time, the centroid of the cell, the name of the component and its value in that cell at that time; numbers of sites outside the mesh are refused; the cells selected do not depend on the number of processes.", "quantifier": "For all numbers of processes, all distributions of owned and ghost cells, all solutions, all lists of sites, all numbers of components and all sequences of calls of the monitor.", "why_tests_cant": "Values and coordinates reach the first process through two scatters with different block sizes, and the coordinates are packed by a loop that skips ghost cells; a mistake shows on certain partitions only, and the file looks plausible all the same.", "anchors": ["src/time_series.c:119-250", "src/time_series.c:395-448", "src/time_series.c:536-543", "src/rdyadvance.c:266-276"]}
{"id": "C116", "title": "With sediment, the assembled CEED operators give the divergences of the edges treated one by one, with the fluxes through the boundaries", "statement": "In a run with sediment the flux operators that the CEED backend assembles from the arrays of the mesh give, in every evaluation, the flux divergences of water, momentum and all tracers that result from treating the owned edges one by one; what earlier evaluations left behind and what uninitialised memory holds has no influence; the vectors of boundary fluxes hold the fluxes through the edges; every evaluation is defined.", "quantifier": "For all meshes and divisions, boundaries and their conditions, numbers of tracers, both Riemann solvers, all states, time steps and sequences of evaluations, and all contents of memory that is not written.", "why_tests_cant": "The operators index packed arrays with a number of components that depends on the configuration; a Q-function that fails to write an output, or writes one component too many, usually goes unnoticed until the memory behind it happens to matter.", "anchors": ["src/operator_fluxes_ceed.c:129-285", "src/operator_fluxes_ceed.c:415-645", "src/operator.c:561-604", "src/tracer/tracer_fluxes_ceed.h:25-203", "src/tracer/tracer_types_ceed.h:25-28"]}
{"id": "C117", "title": "With sediment, the assembled CEED source operator gives each cell its own sources, friction, erosion and deposition", "statement": "In a run with sediment the source operator that the CEED backend assembles gives every owned cell the right-hand side formed from its own flux divergence, external sources, bed slope, roughness and state, including friction and, for each sediment class, erosion minus deposition, with either friction method; the primitive variables and the sources it records are those of the evaluation; what was evaluated before has no influence; salinity changes only by fluxes and its own sources; on one process the whole right-hand side is that of edges and cells treated one by one, and in states without fronts that of the PETSc backend.", "quantifier": "For all meshes and divisions, ownerships, numbers of tracers, friction methods, states, sources, roughnesses, time steps and sequences of evaluations.", "why_tests_cant": "The operator reads some arrays by local cell and others by owned cell with a stride that depends on the number of tracers, and fixed-size arrays inside the Q-function limit that number; a test sees one configuration on one mesh.", "anchors": ["src/operator_sources_ceed.c:111-222", "src/operator.c:606-646", "src/tracer/tracer_sources_ceed.h:37-149", "src/tracer/tracer_sources_hydro_recon_ceed.h:30-99"]}
{"id": "C118", "title": "What is set through the API is what the next right-hand side uses", "statement": "After any sequence of calls that set sources and Manning coefficients, for a region (with values per cell or one value), or for the whole domain, interleaved with any number of evaluations of the right-hand side, the next evaluation succeeds and gives each owned cell the right-hand side with the source of each component and the Manning coefficient that the last call concerning that cell gave it (0 if none did), with the CEED backend with and without tracers and with the PETSc backend; cells may be in several regions; a well-formed call succeeds without an access outside a vector; a wrong number of values is an error.", "quantifier": "For all meshes, divisions and ownerships, lists of regions (also overlapping), sequences of calls and evaluations, values, states and time steps.", "why_tests_cant": "The values pass through per-region copies indexed by owned numbers, into vectors with a stride that depends on the configuration, and are read by the operators under another numbering; a test checks one region layout and one call at a time.", "anchors": ["src/rdydata.c:209-374", "src/rdydata.c:506-539", "src/operator.c:1111-1196", "src/operator.c:1284-1366", "src/rdysetup.c:221-272"]}
{"id": "C119", "title": "Boundary values set through the API are what the next evaluation uses", "statement": "After any sequence of calls that give Dirichlet values to boundaries (depth and momenta, concentrations of the sediment classes, salinity, temperature), interleaved with any number of evaluations, the next evaluation uses for each edge and each component of each Dirichlet boundary the value that was given last to that component of that edge (0 if none was), with the CEED backend and the PETSc backend, with and without tracers; a call for a boundary that there is, with its number of edges, the right number of values per edge, and a Dirichlet condition for the quantity succeeds; all others are errors.", "quantifier": "For all meshes, divisions and ownerships, lists of boundaries, sequences of calls and evaluations, values, states and time steps.", "why_tests_cant": "Values are spread over components of vectors that belong to suboperators, and calls for different quantities write to the same vector; a test sets one quantity at one boundary, once.", "anchors": ["src/rdydata.c:76-170", "src/operator.c:899-905", "src/operator.c:981-1061", "src/operator_fluxes_ceed.c:514-566"]}
{"id": "C120", "title": "The numerical settings of a configuration are those that run, or the run is refused", "statement": "For every configuration the Riemann solver (in the interior and at every boundary), the order, the well-balancing method, the treatment of friction, the time integrator, the number of tracers and the source of the bed elevations that a run uses are those the configuration asks for; a combination that a backend does not have is refused, it is known which are refused and when (on reading the file, on creating the operators, or at the first evaluation), and a configuration that both backends run is run with the same numerics by both. It fails: with CEED, hydrostatic reconstruction and tracers, upwind_roe is accepted and interior edges use the other solver; bradford_sanders_2002 is accepted with salinity and has no effect; grid.cell_elevation.file has no effect without hydrostatic reconstruction, nor with sediment in the PETSc backend; upwind_roe without tracers is refused only where a process has boundaries.", "quantifier": "every combination of settings, number of sediment classes, list of boundary conditions, both backends", "why_tests_cant": "The product of the settings is far larger than any set of input files, and a setting that is silently ignored gives a run that looks healthy.", "anchors": ["src/yaml_input.c:900-943", "src/operator.c:140-220", "src/operator.c:348-402", "src/operator_fluxes_ceed.c:48-82", "src/operator_fluxes_ceed.c:288-375", "src/operator_fluxes_hydro_recon_ceed.c:35-53", "src/operator_fluxes_petsc.c:17-95", "src/tracer/tracer_petsc.c:1036-1047"]}
{"id": "C121", "title": "With sediment, the right-hand side assembled by the PETSc backend is that of edges and cells one by one, whatever earlier evaluations left", "statement": "In a run with sediment on the PETSc backend, with or without hydrostatic reconstruction, every evaluation of the right-hand side accesses no array outside its bounds, gives for every component of every owned cell what edges and cells treated one after the other give (flux divergences, pressure corrections, bed slope, friction, erosion and deposition, external sources), does not depend on what operators and vectors keep from earlier evaluations, keeps still muddy water at rest, and leaves the primitive variables of the state for output. It fails: on a process where a ghost cell has a lower local number than a wet owned cell near the end, Manning's coefficient is read outside its vector in every evaluation (flow alone works there); with hydrostatic reconstruction the primitive variables for output are never written, and a file with elevations of cells is ignored.", "quantifier": "every mesh, partition, bed, list of boundaries, number of sediment classes that fits the limit, Riemann solver, sequence of states, steps, sources and roughnesses, and every earlier content of the operators", "why_tests_cant": "Whether an index stays within a vector depends on the numbering a partition happens to give; a test compares a few runs, mostly on one process, where local and owned numbers agree.", "anchors": ["src/tracer/tracer_petsc.c:617-737", "src/tracer/tracer_petsc.c:792-986", "src/tracer/tracer_petsc.c:988-1062", "src/tracer/tracer_petsc.c:1067-1154", "src/operator.c:194-217", "src/operator.c:656-672", "src/operator_fluxes_petsc.c:17-95"]}
{"id": "C122", "title": "Every simulation of a process keeps the backend it was set up with", "statement": "When several simulations live in one process, every call on a simulation (evaluation, transfer of data, diagnostics, destruction) is done by the backend, libCEED or PETSc, that its own set-up chose with -ceed, whatever is set up, used or destroyed in between. It holds if no set-up chooses another backend than that of another simulation alive at that time. Otherwise it fails: after a set-up with the other backend, every call on the earlier simulation, even its destruction, reads the data of one backend as those of the other. A set-up itself is never undefined, and is judged with the backend of the set-up before it as to BS2002 well-balancing.", "quantifier": "every interleaving of set-ups, calls and destructions of any number of simulations, all resources and configurations", "why_tests_cant": "Tests set up one simulation per process; the failure needs two with different options, and reads memory through a wrong type, which may go unnoticed.", "anchors": ["src/ceed.c:5-9", "src/ceed.c:46-67", "src/rdysetup.c:106-132", "src/rdysetup.c:1373-1398", "include/private/rdyoperatorimpl.h:129-188", "src/operator.c:421-470", "src/operator.c:683-693", "src/yaml_input.c:916-925"]}
{"id": "C123", "title": "The directories of a run exist before anything is written to them", "statement": "Before the first step, the output directory named in the configuration (in an ensemble also one in it for every member) and, where checkpoints are asked for, the checkpoint directory exist; they are made if missing, existing ones are kept with all they contain, nothing else in the file system is touched, and if they cannot be made every process reports an error. In an ensemble the outcome does not depend on which member is faster. It holds if the directory above exists (else the run is refused everywhere, nested directories are not made). It fails: a file of that name is taken for the directory, and with a slash in a member's name the outcome depends on which member is faster.", "quantifier": "every file system, directory name, ensemble size, list of member names, and order in which the members make their calls", "why_tests_cant": "A test starts from one state of the file system and sees one order of the members; a race shows only now and then.", "anchors": ["src/rdyadvance.c:32-45", "src/rdyadvance.c:48-63", "src/checkpoint.c:31-46", "src/rdyadvance.c:15-28"]}
{"id": "C124", "title": "With tracers, too, results do not depend on the coordinate axes", "statement": "If the axes of the mesh are turned or reflected, with momenta, sources, boundary values, normals and bed slopes given in the new axes, the right-hand side of a run with tracers gives the same change of depth and of every tracer in every cell, and the changes of momentum turned with the axes; it is undefined in the one if in the other. Nor does it matter from which level elevations are measured. So it is in both backends, with both Riemann solvers, with and without hydrostatic reconstruction.", "quantifier": "every rotation and reflection, mesh, number of tracers, state, source, boundary condition (Dirichlet or reflecting), roughness, time step, Riemann solver and backend", "why_tests_cant": "A test compares one mesh with one turned copy, up to rounding; a sign or a swapped component that cancels there goes unnoticed.", "anchors": ["src/tracer/tracer_petsc.c:152-273", "src/tracer/tracer_petsc.c:405-528", "src/tracer/tracer_petsc.c:617-740", "src/tracer/tracer_petsc.c:807-986", "src/tracer/tracer_roe_flux_ceed.h:17-171", "src/tracer/tracer_fluxes_ceed.h:25-203", "src/tracer/tracer_sources_ceed.h:97-137"]}
{"id": "C125", "title": "A run starts on any distribution of the mesh that gives every process a cell", "statement": "A process takes part with whatever part of the mesh it holds: processes in the interior need no boundary, the check for boundaries is passed as soon as one process has one, and no process divides by the number of its cells if it has none. If all cells are in cell sets and some process has an edge of the boundary, the run starts exactly if every process owns a cell. It fails: a run on more processes than cells is refused instead of leaving processes idle, and if some cells are in no cell set it depends on the distribution whether the run starts.", "quantifier": "every number of processes and every part of the mesh on each of them, with any face sets and cell sets", "why_tests_cant": "Tests run on one to a few processes with small meshes, where every process touches the boundary and owns cells.", "anchors": ["src/rdysetup.c:201-278", "src/rdysetup.c:282-503", "src/operator.c:348-400", "src/operator.c:80-99", "src/swe/swe_petsc.c:738-741"]}
{"id": "C126", "title": "The log tells truthfully how evenly the mesh is distributed", "statement": "The statistics on the distribution of the mesh in the log are those of the numbers of cells of the processes: the total is their sum, the smallest and the largest number are taken by some process and bound all others, the median is the lower median, and the ratio of the largest to the median is at least one, and equal to one exactly if fewer than half of the processes have less than the largest number. The figures do not depend on the numbering of the processes, no entry outside the gathered array is read, and the ratio is a number exactly if more than half of the processes own cells, in particular for each run that starts.", "quantifier": "every number of processes and all numbers of cells on them", "why_tests_cant": "The figures go to the log and no test reads them; the median index depends on the parity of the number of processes.", "anchors": ["src/rdysetup.c:1333-1369", "src/rdymesh.c:1433"]}
{"id": "C127", "title": "An ensemble member computes with its own materials and conditions, all of them checked", "statement": "After the configuration is read, each flow, sediment and salinity condition and each material with an expression has parsers for its own texts, also if it comes from an ensemble member, and making parsers changes no text; in a run without an ensemble, each material's coefficient comes from a file or a text that the user gave, and no parser is evaluated that does not exist. It fails for ensembles: the entries of members are never checked, so a member's material with neither value nor file is accepted and a parser that does not exist is evaluated, and a member's condition without a water height is accepted, while the same entries in the base configuration are refused.", "quantifier": "every configuration with any number of materials, conditions and sediment classes, and every ensemble member", "why_tests_cant": "Tests of ensembles replace entries by complete ones; the order of checks, replacements and parsing shows only for incomplete ones.", "anchors": ["src/yaml_input.c:1594-1630", "src/yaml_input.c:1018-1086", "src/yaml_input.c:1318-1376", "src/ensemble.c:28-83", "src/rdysetup.c:505-537"]}
{"id": "C128", "title": "A file of boundary values drives the Dirichlet boundary on every process", "statement": "A file of boundary values that are uniform in space is accepted exactly if no process has two Dirichlet boundaries and some process has one; values never go to another boundary than the Dirichlet boundary of the process, and they are set on all of its edges there. On one process they always arrive. It fails on several processes: the position of the boundary among those that a process holds is taken to be the same on all processes, and the run ends with an error exactly if a process with edges of the Dirichlet boundary has it at a smaller position than another process. The same holds for data that vary in space, and then the midpoints used are those of the boundary that gets the values.", "quantifier": "every number of processes and every list of boundaries on each of them", "why_tests_cant": "Tests use meshes and numbers of processes where each process holds the same boundaries or only one holds the Dirichlet boundary.", "anchors": ["src/forcing/rdyforcing.c:16-77", "src/forcing/rdyforcing.c:736-743", "src/rdydata.c:24-99", "src/rdysetup.c:382-437"]}
