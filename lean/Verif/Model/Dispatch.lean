import Verif.Model.CeedFields
import Verif.Model.CeedTOp

/-!
Model of the way from the numerical settings of a configuration to the operators that run: the checks of the settings when the file is read
(`/repo/src/yaml_input.c:900-943`), the checks when the operators are created (`/repo/src/operator.c:348-402`), the choice of the kernels by the two backends
(`/repo/src/operator.c:140-220`, `/repo/src/operator_fluxes_ceed.c:48-82`, `:288-375`, `/repo/src/operator_fluxes_hydro_recon_ceed.c:35-53`, `/repo/src/operator_sources_ceed.c:23-68`,
`/repo/src/operator_sources_hydro_recon_ceed.c:23-66`, `/repo/src/operator_fluxes_petsc.c:17-95`, `/repo/src/operator_sources_petsc.c:13-45`), and the checks that the PETSc operators
make when they are evaluated for the first time.
-/

namespace RDy

/-- Where the elevation of the bed enters: by the slopes of the cells (from the elevations of vertices, `/repo/src/rdymesh.c:970-1000`), by one elevation per cell that is
the mean of its vertices, or by one elevation per cell read from the file `grid.cell_elevation.file`. `/repo/src/swe/swe_petsc.c:1209-1225`. -/
inductive BedFrom
  | slopes
  | vertexMeans
  | cellFile
  deriving DecidableEq

/-- The numerical settings: those of `CeedCfg` with `numerics.temporal`, `numerics.spatial`, and whether `grid.cell_elevation.file` is given.
`/repo/include/private/rdyconfigimpl.h:73-132`, `:236-244`. -/
structure NumCfg where
  base : CeedCfg
  temporal : Temporal
  spatial : Spatial
  elevFile : Bool

/-- What a run computes with: the solver of interior edges, that of each boundary, the order, the well-balancing method, the treatment of friction, the elevations, the number
of tracers, the time integrator. `/repo/src/operator.c:140-220`. -/
structure Numerics where
  interior : Riemann
  boundaries : List Riemann
  second : Bool
  wb : WellBalancing
  friction : SourceMethod
  bed : BedFrom
  tracers : ℕ
  temporal : Temporal
  deriving DecidableEq

/-- How far a run comes: the error is reported by `ReadConfigFile`, by the rest of `RDySetup`, or by the first evaluation of the right-hand side (in `RDyAdvance`); or the run goes on.
`/repo/src/rdysetup.c:1373-1560`. -/
inductive Start
  | atReading
  | atSetup
  | atEvaluation
  | runs (n : Numerics)
  deriving DecidableEq

/-- The settings can be written in the file (the tables of names, `/repo/src/yaml_input.c:60-63` and `:117-121`, have no ARK-IMEX; there is no `heat`, `:93-101`) and `ValidateConfig`
accepts them (`/repo/src/yaml_input.c:913-942`). `ceedNow` is `CeedEnabled()` at that time, see `setupWellBalancing`. Simplified: the other checks of `ValidateConfig` are in
`Config.lean`. -/
def NumCfg.readable (c : NumCfg) (ceedNow : Bool) : Bool :=
  if c.base.source = .arkImex then false
  else if c.temporal = .arkImex then false
  else if c.base.heat = true then false
  else if refusesBS2002 c.base.wb c.base.classes ceedNow = true then false
  else if maxSedimentClasses < c.base.classes then false
  else if c.spatial ≠ .fv then false
  else if c.temporal = .beuler then false
  else if c.base.riemann ≠ .roe ∧ c.base.riemann ≠ .upwindRoe then false
  else true

/-- The checks of `CreateOperator` for second order, with both backends: `/repo/src/operator.c:354-362` and `:385-387`. -/
def CeedCfg.combines (c : CeedCfg) : Bool :=
  if c.second = true then
    if c.classes > 0 ∨ c.salinity = true ∨ c.heat = true then false
    else if c.wb = .hr then false
    else true
  else true

/-- `InitSolver`, `/repo/src/rdysetup.c:1183-1196`. -/
def timeMethod : Temporal → Option Temporal
  | .euler => some .euler
  | .rk4 => some .rk4
  | .beuler => some .beuler
  | .arkImex => none

/-! ### CEED -/

/-- The solver of the kernel for interior edges: `/repo/src/operator_fluxes_hydro_recon_ceed.c:35-53` (the setting is not looked at), `/repo/src/operator_fluxes_ceed.c:1226-1238`
(second order: neither), `:48-82`. -/
def ceedInteriorSolver (c : CeedCfg) : Option Riemann :=
  if c.wb = .hr then some .roe
  else if c.second = true then some .roe
  else if c.tracers = 0 then
    match c.riemann with
    | .roe => some .roe
    | _ => none
  else
    match c.riemann with
    | .roe => some .roe
    | .upwindRoe => some .upwindRoe
    | _ => none

/-- The solver of the kernel for a boundary, `/repo/src/operator_fluxes_ceed.c:288-375`. -/
def ceedBoundarySolver (c : CeedCfg) (t : CondType) : Option Riemann :=
  match t with
  | .dirichlet | .reflecting =>
    if c.tracers = 0 then
      match c.riemann with
      | .roe => some .roe
      | _ => none
    else
      match c.riemann with
      | .roe => some .roe
      | .upwindRoe => some .upwindRoe
      | _ => none
  | .criticalOutflow =>
    if c.tracers = 0 then
      match c.riemann with
      | .roe => some .roe
      | _ => none
    else none
  | _ => none

/-- The friction of the source kernel: `/repo/src/operator_sources_ceed.c:23-68` and, with hydrostatic reconstruction, `/repo/src/operator_sources_hydro_recon_ceed.c:23-66`. -/
def ceedFriction (c : CeedCfg) : Option SourceMethod :=
  if c.tracers = 0 then
    match c.source with
    | .semiImplicit => some .semiImplicit
    | .xq2018 => some .xq2018
    | .arkImex => some .arkImex
  else
    match c.source with
    | .semiImplicit => some .semiImplicit
    | .xq2018 => none
    | .arkImex => some .arkImex

/-- The well-balancing method in effect: `/repo/src/operator.c:154-191`, `:519`. The water surface at vertices, which is all that `bradford_sanders_2002` changes, is an input of
the kernels without tracers only (`/repo/src/tracer/tracer_fluxes_ceed.h:24-32`). -/
def ceedWb (c : CeedCfg) : WellBalancing :=
  match c.wb with
  | .none => .none
  | .bs2002 => if c.tracers = 0 then .bs2002 else .none
  | .hr => .hr

/-- The elevations: `/repo/src/operator_fluxes_hydro_recon_ceed.c:121-146`; without hydrostatic reconstruction only those of vertices are read
(`/repo/src/operator_fluxes_ceed.c:190-191`, `/repo/src/operator_sources_ceed.c:154-160`). -/
def ceedBed (c : NumCfg) : BedFrom :=
  if c.base.wb = .hr then
    if c.elevFile = true then .cellFile else .vertexMeans
  else .slopes

/-- A start with CEED on a process whose boundaries have conditions `bnds`: `/repo/src/rdysetup.c:1373-1560`, `/repo/src/operator.c:153-193`. -/
def startCeed (ceedNow : Bool) (c : NumCfg) (bnds : List CondType) : Start :=
  if c.readable ceedNow = false then .atReading
  else if c.base.combines = false then .atSetup
  else
    match ceedInteriorSolver c.base, bnds.mapM (ceedBoundarySolver c.base), ceedFriction c.base, timeMethod c.temporal with
    | some i, some b, some f, some t => .runs ⟨i, b, c.base.second, ceedWb c.base, f, ceedBed c, c.base.tracers, t⟩
    | _, _, _, _ => .atSetup

/-! ### PETSc -/

/-- The friction of the source operator, chosen when it is created: flow only `/repo/src/swe/swe_petsc.c:966-976`, `:1251-1261`; with sediment
`/repo/src/tracer/tracer_petsc.c:778-786`, `:1186-1194`. -/
def petscFriction (c : CeedCfg) : Option SourceMethod :=
  if c.classes > 0 then
    match c.source with
    | .semiImplicit => some .semiImplicit
    | _ => none
  else
    match c.source with
    | .semiImplicit => some .semiImplicit
    | .xq2018 => some .xq2018
    | _ => none

/-- The check of the number of components, then the choice of the solver, at the first evaluation. Whether there are tracers is decided by the sediment classes alone
(`/repo/src/operator_fluxes_petsc.c:31-35`, `:76-80`). Flow: `/repo/src/swe/swe_petsc.c:115`, `:157-163`, `:233`, `:264-270`, `:1018`, `:1075-1081`; sediment:
`/repo/src/tracer/tracer_petsc.c:182`, `:214-223`, `:836`, `:899-908`. -/
def petscSolver (c : CeedCfg) : Option Riemann :=
  if c.comps ≠ 3 + c.classes then none
  else if c.classes > 0 then
    match c.riemann with
    | .roe => some .roe
    | .upwindRoe => some .upwindRoe
    | _ => none
  else
    match c.riemann with
    | .roe => some .roe
    | _ => none

/-- The same for a boundary, where the type of condition is looked at before the solver: `/repo/src/swe/swe_petsc.c:529`, `:550-580`; `/repo/src/tracer/tracer_petsc.c:435`, `:455-488`. -/
def petscBoundarySolver (c : CeedCfg) (t : CondType) : Option Riemann :=
  match t with
  | .dirichlet | .reflecting => petscSolver c
  | .criticalOutflow => if c.classes > 0 then none else petscSolver c
  | _ => none

/-- The elevations: `/repo/src/swe/swe_petsc.c:1209-1225` and, with sediment, `/repo/src/tracer/tracer_petsc.c:1036-1047` (the file is not looked at). -/
def petscBed (c : NumCfg) : BedFrom :=
  if c.base.wb = .hr then
    if c.base.classes > 0 then .vertexMeans
    else if c.elevFile = true then .cellFile else .vertexMeans
  else .slopes

/-- A start with the PETSc backend: `/repo/src/rdysetup.c:1373-1560`, `/repo/src/operator.c:194-217`; the fluxes are evaluated before anything else (`:656-672`). -/
def startPetsc (ceedNow : Bool) (c : NumCfg) (bnds : List CondType) : Start :=
  if c.readable ceedNow = false then .atReading
  else if c.base.combines = false then .atSetup
  else
    match petscFriction c.base, timeMethod c.temporal with
    | some f, some t =>
      match petscSolver c.base, bnds.mapM (petscBoundarySolver c.base) with
      | some i, some b => .runs ⟨i, b, c.base.second, implemented c.base.wb false, f, petscBed c, c.base.classes, t⟩
      | _, _ => .atEvaluation
    | _, _ => .atSetup

end RDy
