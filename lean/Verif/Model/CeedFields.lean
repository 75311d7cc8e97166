import Verif.Model.Config
import Verif.Model.Boundaries
import Verif.Model.Eta
import Verif.Model.Courant

/-!
Model of the way the CEED operators are put together: which Q-function each sub-operator uses, the fields
registered for it, the positions from which the Q-function takes its inputs and at which it leaves its outputs
(`/repo/src/operator_fluxes_ceed.c`, `/repo/src/operator_fluxes_hydro_recon_ceed.c`,
`/repo/src/operator_sources_ceed.c`, `/repo/src/operator_sources_hydro_recon_ceed.c`, the Q-functions in
`/repo/src/swe` and `/repo/src/tracer`), the time step held by the Q-function contexts and the Courant numbers read
back from the operators (`/repo/src/operator.c:502-513`, `:775-840`).

Contract assumed of libCEED: the fields of a Q-function are handed to it in the order in which they were
registered (`CeedQFunctionAddInput`, `CeedQFunctionAddOutput`), inputs and outputs counted separately.
-/

namespace RDy

/-- The settings that decide which CEED operators are created (`/repo/include/private/rdyconfigimpl.h:73-132`):
`physics.sediment.num_classes`, `physics.salinity`, `physics.heat`, `physics.flow.well_balancing`,
`physics.flow.source.method`, `numerics.riemann`, `numerics.second_order`. -/
structure CeedCfg where
  classes : ℕ
  salinity : Bool
  heat : Bool
  wb : WellBalancing
  source : SourceMethod
  riemann : Riemann
  second : Bool

/-- `/repo/src/operator_fluxes_ceed.c:44-46` `NumTracers` (the same function is defined in
`/repo/src/operator_fluxes_hydro_recon_ceed.c:31-33` and `/repo/src/operator_sources_ceed.c:19-21`). -/
def CeedCfg.tracers (c : CeedCfg) : ℕ :=
  c.classes + (if c.salinity then 1 else 0) + (if c.heat then 1 else 0)

/-- the number of components of the solution vector, `num_comp`
(`/repo/src/operator_fluxes_hydro_recon_ceed.c:76-78`) -/
def CeedCfg.comps (c : CeedCfg) : ℕ := 3 + c.tracers

/-- The names under which fields are registered (`CeedQFunctionAddInput`, `CeedQFunctionAddOutput`).
`/repo/src/operator_fluxes_ceed.c:149-162`. -/
inductive CField
  | geom | qLeft | qRight | etaBeg | etaEnd | qDirichlet
  | cellLeft | cellRight | flux | courant
  | qLeftFace | qRightFace
  | extSrc | matProps | riemannf | q | cell | primVars | sources
  | eta
  deriving DecidableEq

/-- The sub-operators: `/repo/src/operator_fluxes_ceed.c:601-640`, `:1405-1432`,
`/repo/src/operator_fluxes_hydro_recon_ceed.c:216-253`, `/repo/src/operator_sources_ceed.c:227`; one for the
interior edges, one for each boundary (with the type of its flow condition), one for the sources, one for the
water surface at vertices. -/
inductive SubOp
  | interior
  | boundary (t : CondType)
  | source
  | etaVertices
  deriving DecidableEq

/-- The Q-functions. The variants that differ in the Riemann solver or the friction term only share their
helper, hence their fields. `/repo/src/operator_fluxes_ceed.c:48-82`. -/
inductive QF
  | sweFlux | tracerFlux | sweFluxHR | tracerFluxHR | sweFluxMuscl
  | sweDirichlet | sweReflecting | sweOutflow | tracerDirichlet | tracerReflecting
  | sweSources | tracerSources | sweSourcesHR | tracerSourcesHR
  | etaVertex
  deriving DecidableEq

/-- The Q-function of a sub-operator, `none` if a `PetscCheck` refuses the configuration:
interior edges `/repo/src/operator_fluxes_ceed.c:48-82`, `/repo/src/operator_fluxes_hydro_recon_ceed.c:35-50`,
`/repo/src/operator_fluxes_ceed.c:1233-1234` with the checks `/repo/src/operator.c:354-358`, `:386-387`;
boundaries `/repo/src/operator_fluxes_ceed.c:290-370`; sources `/repo/src/operator_sources_ceed.c:23-68`,
`/repo/src/operator_sources_hydro_recon_ceed.c:23-66`; vertices `/repo/src/operator_fluxes_ceed.c:765-769`. -/
def CeedCfg.qf (c : CeedCfg) : SubOp → Option QF
  | .interior =>
    if c.second then
      if c.tracers = 0 ∧ c.wb ≠ .hr then some .sweFluxMuscl else none
    else if c.wb = .hr then
      if c.tracers = 0 then some .sweFluxHR else some .tracerFluxHR
    else if c.tracers = 0 then
      if c.riemann = .roe then some .sweFlux else none
    else if c.riemann = .hllc then none else some .tracerFlux
  | .boundary t =>
    match t with
    | .dirichlet =>
      if c.tracers = 0 then
        if c.riemann = .roe then some .sweDirichlet else none
      else if c.riemann = .hllc then none else some .tracerDirichlet
    | .reflecting =>
      if c.tracers = 0 then
        if c.riemann = .roe then some .sweReflecting else none
      else if c.riemann = .hllc then none else some .tracerReflecting
    | .criticalOutflow =>
      if c.tracers = 0 then
        if c.riemann = .roe then some .sweOutflow else none
      else none
    | _ => none
  | .source =>
    if c.tracers = 0 then
      if c.wb = .hr then some .sweSourcesHR else some .sweSources
    else if c.source = .xq2018 then none
    else if c.wb = .hr then some .tracerSourcesHR else some .tracerSources
  | .etaVertices => some .etaVertex

/-- The inputs registered, in order, with their numbers of components:
`/repo/src/operator_fluxes_ceed.c:149-158` (first order), `/repo/src/operator_fluxes_hydro_recon_ceed.c:88-92`
(`HR_NUM_COMP_INTERIOR_GEOM` is 6, `/repo/src/swe/swe_fluxes_hydro_recon_ceed.h:41-49`),
`/repo/src/operator_fluxes_ceed.c:1242-1252` (second order), `:438-450` (boundaries),
`/repo/src/operator_sources_ceed.c:128-134` and `/repo/src/operator_sources_hydro_recon_ceed.c:113-120` (sources;
`NUM_MATERIAL_PROPERTIES` is 1, `/repo/CMakeLists.txt:18`), `/repo/src/operator_fluxes_ceed.c:755-772` (vertices). -/
def CeedCfg.inputs (c : CeedCfg) : SubOp → List (CField × ℕ)
  | .interior =>
    if c.second then
      [(.geom, 6), (.qLeftFace, 3), (.qRightFace, 3), (.etaBeg, 1), (.etaEnd, 1)]
    else if c.wb = .hr then
      [(.geom, 6), (.qLeft, c.comps), (.qRight, c.comps)]
    else
      [(.geom, 6), (.qLeft, c.comps), (.qRight, c.comps)] ++
        (if c.classes = 0 then [(.etaBeg, 1), (.etaEnd, 1)] else [])
  | .boundary t =>
    [(.geom, 5), (.qLeft, c.comps)] ++
      (if c.classes = 0 then [(.etaBeg, 1), (.etaEnd, 1)] else []) ++
      (if t = .dirichlet then [(.qDirichlet, c.comps)] else [])
  | .source => [(.geom, 2), (.extSrc, c.comps), (.matProps, 1), (.riemannf, c.comps), (.q, c.comps)]
  | .etaVertices => [(.geom, 4), (.q, 3 + c.classes)]

/-- The outputs registered, in order: `/repo/src/operator_fluxes_ceed.c:159-162`,
`/repo/src/operator_fluxes_hydro_recon_ceed.c:93-96`, `/repo/src/operator_fluxes_ceed.c:1255-1257`, `:447-452`,
`/repo/src/operator_sources_ceed.c:135-137`, `/repo/src/operator_sources_hydro_recon_ceed.c:121-123`,
`/repo/src/operator_fluxes_ceed.c:773`. -/
def CeedCfg.outputs (c : CeedCfg) : SubOp → List (CField × ℕ)
  | .interior =>
    if c.second then [(.cellLeft, 3), (.cellRight, 3), (.courant, 2)]
    else [(.cellLeft, c.comps), (.cellRight, c.comps), (.flux, c.comps), (.courant, 2)]
  | .boundary _ => [(.cellLeft, c.comps), (.flux, c.comps), (.courant, 1)]
  | .source => [(.cell, c.comps), (.primVars, c.comps), (.sources, c.comps)]
  | .etaVertices => [(.eta, 1)]

/-- The use a Q-function makes of one of its arguments: the position in `in[]` or `out[]`, what the code takes it
to be, the number of components accessed in at least one branch, and the number accessed in every branch.
`/repo/src/swe/swe_fluxes_ceed.h:46-54`. -/
structure Access where
  pos : ℕ
  what : CField
  rows : ℕ
  sure : ℕ

/-- The inputs used by a Q-function, where `nt` is `tracer_ndof` of its context
(`/repo/src/tracer/tracer_ceed.c:34`, `:46`): `/repo/src/swe/swe_fluxes_ceed.h:46-50`, `:106-110`, `:160-163`,
`:216-219`; `/repo/src/tracer/tracer_fluxes_ceed.h:26-28`, `:91-93`, `:152-153`;
`/repo/src/swe/swe_fluxes_hydro_recon_ceed.h:65-67`, `/repo/src/tracer/tracer_fluxes_hydro_recon_ceed.h:45-47`;
`/repo/src/swe/swe_muscl_fluxes_ceed.h:50-54`; `/repo/src/swe/swe_sources_ceed.h:109-113`,
`/repo/src/tracer/tracer_sources_ceed.h:80-84`, `/repo/src/swe/swe_sources_hydro_recon_ceed.h:34-37`,
`/repo/src/tracer/tracer_sources_hydro_recon_ceed.h:33-36`; `/repo/src/swe/swe_well_balancing.h:32-33`. -/
def QF.reads (nt : ℕ) : QF → List Access
  | .sweFlux => [⟨0, .geom, 6, 6⟩, ⟨1, .qLeft, 3, 3⟩, ⟨2, .qRight, 3, 3⟩, ⟨3, .etaBeg, 1, 1⟩, ⟨4, .etaEnd, 1, 1⟩]
  | .tracerFlux => [⟨0, .geom, 4, 0⟩, ⟨1, .qLeft, 3 + nt, 3 + nt⟩, ⟨2, .qRight, 3 + nt, 3 + nt⟩]
  | .sweFluxHR => [⟨0, .geom, 6, 6⟩, ⟨1, .qLeft, 3, 3⟩, ⟨2, .qRight, 3, 3⟩]
  | .tracerFluxHR => [⟨0, .geom, 6, 6⟩, ⟨1, .qLeft, 3 + nt, 3 + nt⟩, ⟨2, .qRight, 3 + nt, 3 + nt⟩]
  | .sweFluxMuscl =>
    [⟨0, .geom, 6, 6⟩, ⟨1, .qLeftFace, 3, 3⟩, ⟨2, .qRightFace, 3, 3⟩, ⟨3, .etaBeg, 1, 1⟩, ⟨4, .etaEnd, 1, 1⟩]
  | .sweDirichlet =>
    [⟨0, .geom, 5, 5⟩, ⟨1, .qLeft, 3, 3⟩, ⟨2, .etaBeg, 1, 1⟩, ⟨3, .etaEnd, 1, 1⟩, ⟨4, .qDirichlet, 3, 3⟩]
  | .sweReflecting => [⟨0, .geom, 5, 5⟩, ⟨1, .qLeft, 3, 3⟩, ⟨2, .etaBeg, 1, 1⟩, ⟨3, .etaEnd, 1, 1⟩]
  | .sweOutflow => [⟨0, .geom, 5, 5⟩, ⟨1, .qLeft, 3, 3⟩, ⟨2, .etaBeg, 1, 1⟩, ⟨3, .etaEnd, 1, 1⟩]
  | .tracerDirichlet => [⟨0, .geom, 3, 0⟩, ⟨1, .qLeft, 3 + nt, 3 + nt⟩, ⟨2, .qDirichlet, 3 + nt, 3 + nt⟩]
  | .tracerReflecting => [⟨0, .geom, 3, 2⟩, ⟨1, .qLeft, 3 + nt, 3 + nt⟩]
  | .sweSources =>
    [⟨0, .geom, 2, 2⟩, ⟨1, .extSrc, 3, 3⟩, ⟨2, .matProps, 1, 0⟩, ⟨3, .riemannf, 3, 3⟩, ⟨4, .q, 3, 3⟩]
  | .tracerSources =>
    [⟨0, .geom, 2, 2⟩, ⟨1, .extSrc, 3 + nt, 3 + nt⟩, ⟨2, .matProps, 1, 0⟩, ⟨3, .riemannf, 3 + nt, 3 + nt⟩,
      ⟨4, .q, 3 + nt, 3 + nt⟩]
  | .sweSourcesHR => [⟨1, .extSrc, 3, 3⟩, ⟨2, .matProps, 1, 0⟩, ⟨3, .riemannf, 3, 3⟩, ⟨4, .q, 3, 3⟩]
  | .tracerSourcesHR =>
    [⟨1, .extSrc, 3 + nt, 3 + nt⟩, ⟨2, .matProps, 1, 0⟩, ⟨3, .riemannf, 3 + nt, 3 + nt⟩, ⟨4, .q, 3 + nt, 3 + nt⟩]
  | .etaVertex => [⟨0, .geom, 4, 4⟩, ⟨1, .q, 3, 3⟩]

/-- The outputs written by a Q-function: `/repo/src/swe/swe_fluxes_ceed.h:51-54`, `:77-93`, `:111-113`, `:137-147`,
`:164-166`, `:190-200`, `:220-222`, `:249-259`; `/repo/src/tracer/tracer_fluxes_ceed.h:29-32`, `:60-73`, `:94-96`,
`:124-135` (the dry branch writes two Courant numbers), `:154-155`, `:188-197` (two outputs only);
`/repo/src/swe/swe_fluxes_hydro_recon_ceed.h:68-70`, `:125-160`,
`/repo/src/tracer/tracer_fluxes_hydro_recon_ceed.h:48-50`, `:123-150` (the Courant numbers are at position 2);
`/repo/src/swe/swe_muscl_fluxes_ceed.h:55-57`, `:80-94`; `/repo/src/swe/swe_sources_ceed.h:116-118`, `:151-165`,
`/repo/src/tracer/tracer_sources_ceed.h:87-89`, `:131-149`, `/repo/src/swe/swe_sources_hydro_recon_ceed.h:40-42`,
`/repo/src/tracer/tracer_sources_hydro_recon_ceed.h:39-41`; `/repo/src/swe/swe_well_balancing.h:36`. -/
def QF.writes (nt : ℕ) : QF → List Access
  | .sweFlux => [⟨0, .cellLeft, 3, 3⟩, ⟨1, .cellRight, 3, 3⟩, ⟨2, .flux, 3, 3⟩, ⟨3, .courant, 2, 2⟩]
  | .tracerFlux =>
    [⟨0, .cellLeft, 3 + nt, 3 + nt⟩, ⟨1, .cellRight, 3 + nt, 3 + nt⟩, ⟨2, .flux, 3 + nt, 3 + nt⟩, ⟨3, .courant, 2, 2⟩]
  | .sweFluxHR => [⟨0, .cellLeft, 3, 3⟩, ⟨1, .cellRight, 3, 3⟩, ⟨2, .courant, 2, 2⟩]
  | .tracerFluxHR =>
    [⟨0, .cellLeft, 3 + nt, 3 + nt⟩, ⟨1, .cellRight, 3 + nt, 3 + nt⟩, ⟨2, .courant, 2, 2⟩]
  | .sweFluxMuscl => [⟨0, .cellLeft, 3, 3⟩, ⟨1, .cellRight, 3, 3⟩, ⟨2, .courant, 2, 2⟩]
  | .sweDirichlet => [⟨0, .cellLeft, 3, 3⟩, ⟨1, .flux, 3, 3⟩, ⟨2, .courant, 1, 1⟩]
  | .sweReflecting => [⟨0, .cellLeft, 3, 3⟩, ⟨1, .flux, 3, 3⟩, ⟨2, .courant, 1, 1⟩]
  | .sweOutflow => [⟨0, .cellLeft, 3, 3⟩, ⟨1, .flux, 3, 3⟩, ⟨2, .courant, 1, 1⟩]
  | .tracerDirichlet => [⟨0, .cellLeft, 3 + nt, 3 + nt⟩, ⟨1, .flux, 3 + nt, 3 + nt⟩, ⟨2, .courant, 2, 1⟩]
  | .tracerReflecting => [⟨0, .cellLeft, 3 + nt, 3 + nt⟩, ⟨2, .courant, 1, 1⟩]
  | .sweSources => [⟨0, .cell, 3, 3⟩, ⟨1, .primVars, 3, 3⟩, ⟨2, .sources, 3, 3⟩]
  | .tracerSources =>
    [⟨0, .cell, 3 + nt, 3 + nt⟩, ⟨1, .primVars, 3 + nt, 3 + nt⟩, ⟨2, .sources, 3 + nt, 3 + nt⟩]
  | .sweSourcesHR => [⟨0, .cell, 3, 3⟩, ⟨1, .primVars, 3, 3⟩, ⟨2, .sources, 3, 3⟩]
  | .tracerSourcesHR =>
    [⟨0, .cell, 3 + nt, 3 + nt⟩, ⟨1, .primVars, 3 + nt, 3 + nt⟩, ⟨2, .sources, 3 + nt, 3 + nt⟩]
  | .etaVertex => [⟨0, .eta, 1, 1⟩]

/-! ### The time step of the contexts and the Courant numbers read back -/

/-- The time steps held by the CEED operators: `op->ceed.dt`, and the `time step` of the contexts of the Q-functions
of `op->ceed.flux`, `op->ceed.source` and `op->ceed.muscl_interior_flux`.
`/repo/src/operator.c:366`, `:502-514`. -/
structure CeedDt where
  op : ℝ
  flux : ℝ
  source : ℝ
  muscl : ℝ

/-- `/repo/src/operator.c:366` (`PetscCalloc1`), `/repo/src/swe/swe_ceed.c:31`, `/repo/src/tracer/tracer_ceed.c:36` -/
def CeedDt.init : CeedDt := ⟨0, 0, 0, 0⟩

/-- The beginning of `ApplyCeedOperator`, `/repo/src/operator.c:505-514`. -/
noncomputable def CeedDt.apply (s : CeedDt) (dt : ℝ) : CeedDt :=
  if s.op ≠ dt then ⟨dt, dt, dt, s.muscl⟩ else s

/-- The time step used by the flux Q-functions of a sub-operator; with `second_order` the sub-operator for interior
edges is `muscl_interior_flux`, not part of the composite operator `op->ceed.flux`
(`/repo/src/operator_fluxes_ceed.c:1416-1430`). -/
def CeedDt.of (c : CeedCfg) (s : CeedDt) : SubOp → ℝ
  | .interior => if c.second then s.muscl else s.flux
  | .boundary _ => s.flux
  | .source => s.source
  | .etaVertices => 0

/-- What a Q-function leaves at row `j` of output `p` for an edge: at the position it takes for the Courant numbers,
those of the edge (`CEdge.ceedNums`); elsewhere some value `other p j` (fluxes and divergences).
`/repo/src/swe/swe_fluxes_ceed.h:84-95`. -/
noncomputable def QF.out (nt : ℕ) (qf : QF) (dt : ℝ) (e : CEdge) (other : ℕ → ℕ → ℝ) (p j : ℕ) : ℝ :=
  if (qf.writes nt).any (fun a => a.pos = p ∧ a.what = .courant) then (e.ceedNums dt).getD j 0 else other p j

/-- The effect of one application of a sub-operator on the vector registered as `courant_number`, for one edge: the
outputs are **added** to the vectors registered at their positions, since the flux operators are applied by
`CeedOperatorApplyAdd` (`/repo/src/operator.c:584`, `:587`), which by libCEED's documentation adds into all outputs, active and
passive, and nothing sets these vectors to 0 after their creation.
`/repo/src/operator_fluxes_ceed.c:149-162`, `:207`. -/
noncomputable def CeedCfg.storeCourant (c : CeedCfg) (s : SubOp) (dt : ℝ) (e : CEdge) (other : ℕ → ℕ → ℝ)
    (v : ℕ → ℝ) : ℕ → ℝ :=
  match c.qf s with
  | none => v
  | some qf =>
    (qf.writes c.tracers).foldl (fun v a =>
      match (c.outputs s)[a.pos]? with
      | some (.courant, _) => fun j => if j < a.rows then v j + qf.out c.tracers dt e other a.pos j else v j
      | _ => v) v

/-- One evaluation of the right-hand side: the time step, the state of the edges (wet or dry, wave speeds), and
whatever else the Q-functions compute. `/repo/src/operator.c:502-513`. -/
structure CeedRun where
  dt : ℝ
  edge : ℕ → CEdge
  other : ℕ → ℕ → ℕ → ℝ

/-- One evaluation: the contexts' time steps and the vectors `courant_number` of all edges. `kind i` is the
sub-operator to which edge `i` belongs. `/repo/src/operator.c:502-514`. -/
noncomputable def CeedCfg.run (c : CeedCfg) (kind : ℕ → SubOp) (s : CeedDt × (ℕ → ℕ → ℝ)) (r : CeedRun) :
    CeedDt × (ℕ → ℕ → ℝ) :=
  (s.1.apply r.dt,
    fun i => c.storeCourant (kind i) ((s.1.apply r.dt).of c (kind i)) (r.edge i) (r.other i) (s.2 i))

/-- The number of Courant numbers read per edge: `/repo/src/operator.c:786` (2), `:829` (1). -/
def SubOp.courantRows : SubOp → ℕ
  | .interior => 2
  | _ => 1

/-- `CeedFindMaxCourantNumber` (`/repo/src/operator.c:775-840`) after a series of evaluations, starting from vectors
set to 0 (`/repo/src/operator_fluxes_ceed.c:207`, `:510`, `:1316`, `/repo/src/operator_fluxes_hydro_recon_ceed.c:161`): the largest
of the numbers found in the fields `courant_number` of the `n` edges. -/
noncomputable def CeedCfg.reported (c : CeedCfg) (kind : ℕ → SubOp) (n : ℕ) (runs : List CeedRun) (d : Courant) :
    Courant :=
  { d with
    num := (List.range n).foldl (fun m i =>
      max m (((List.range (kind i).courantRows).map
        ((runs.foldl (c.run kind) (CeedDt.init, fun _ _ => 0)).2 i)).foldl max 0)) d.num }

/-! ### Arrays of fixed size in the kernels with tracers -/

/-- The arrays of fixed size that the CEED and PETSc kernels with tracers index by component.
`/repo/src/tracer/tracer_roe_flux_petsc.h:40-46`. -/
inductive KArray
  /-- `flux`: `/repo/src/tracer/tracer_fluxes_ceed.h:50`, `:115`, `:179`,
  `/repo/src/tracer/tracer_fluxes_hydro_recon_ceed.h:104` -/
  | flux
  /-- `TracerState.hci`: `/repo/src/tracer/tracer_types_ceed.h:24-26` -/
  | hci
  /-- `cil`, `cir`: `/repo/src/tracer/tracer_roe_flux_ceed.h:23`, `:116` -/
  | roeCi
  /-- `cihat`, `dch`, `dW`, `R`, `A`, `FL`, `FR`: `/repo/src/tracer/tracer_roe_flux_ceed.h:36-42`, `:131-132`,
  `/repo/src/tracer/tracer_roe_flux_petsc.h:40-46`, `:152-154` -/
  | roeWork
  /-- `e`, `d`: `/repo/src/tracer/tracer_sources_ceed.h:113`, `/repo/src/tracer/tracer_sources_hydro_recon_ceed.h:62` -/
  | rates
  deriving DecidableEq

/-- The number of entries, where `maxC` is `MAX_NUM_SEDIMENT_CLASSES`: `/repo/CMakeLists.txt:12`, `:21-22`. -/
def KArray.size (maxC : ℕ) : KArray → ℕ
  | .flux => 3 + (maxC + 2)
  | .hci => maxC
  | .roeCi => maxC + 2
  | .roeWork => 3 + (maxC + 2)
  | .rates => maxC

/-- The number of entries used with `nt` tracers: `/repo/src/tracer/tracer_fluxes_ceed.h:60-64` (flux), `:46-49`
(hci), `/repo/src/tracer/tracer_roe_flux_ceed.h:24-27` (cil, cir), `:50-95` (the rest),
`/repo/src/tracer/tracer_sources_ceed.h:66-71`, `:134-136` (e, d). -/
def KArray.used (nt : ℕ) : KArray → ℕ
  | .flux => 3 + nt
  | .hci => nt
  | .roeCi => nt
  | .roeWork => 3 + nt
  | .rates => nt

/-- `/repo/src/yaml_input.c:928-930`: the check of the number of sediment classes. -/
def CeedCfg.classesAllowed (maxC : ℕ) (c : CeedCfg) : Bool := c.classes ≤ maxC

end RDy
