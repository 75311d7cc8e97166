import Verif.Model.Fields
import Verif.Model.Boundaries

/-!
Model of the data accessors: sources, Dirichlet boundary values, Manning coefficients and prognostic
variables (`/repo/src/rdydata.c`, `/repo/src/operator.c:899-1388`).

Vectors are functions from positions; `Res` is the result of a call (value, error, undefined
behaviour). The CEED and PETSc branches use the same layout `values[cell][comp]`, that is
`data[num_comp * cell + comp]`, and are modelled once. Arrays handed in by the caller are lists; the
caller's `size` argument is assumed to be their length.
-/

namespace RDy

/-! ### Regions -/

/-- The part of `RDyRegion` needed here: grid ID and `owned_cell_global_ids`
(`/repo/src/rdysetup.c:221-272`). -/
structure SrcRegion where
  id : ℤ
  owned : List ℕ

/-- `/repo/src/rdydata.c:209-222` `GetRegionIndexFromID`: first region with that ID. -/
def regionOfId (regions : List SrcRegion) (rid : ℤ) : Option SrcRegion :=
  regions.find? fun r => r.id = rid

/-- `/repo/src/operator.c:1165-1180` (PETSc), `:1115-1138` (CEED): a region's data are copied out;
entry `(c, i)` is component `c` of the region's `i`-th owned cell. -/
def getRegionData (n : ℕ) (owned : List ℕ) (data : ℕ → ℝ) (c i : ℕ) : ℝ :=
  data (n * owned.getD i 0 + c)

/-- `/repo/src/operator.c:1182-1196` (PETSc), `:1140-1163` (CEED): a region's data are copied back
(outer loop over components, inner loop over cells). -/
def restoreRegionData (n : ℕ) (owned : List ℕ) (vals : ℕ → ℕ → ℝ) (data : ℕ → ℝ) : ℕ → ℝ :=
  (List.range n).foldl (fun data c =>
    fill data owned.zipIdx (fun p => n * p.1 + c) fun p => vals c p.2) data

/-- `/repo/src/rdydata.c:224-246` `SetRegionalSourceComponent`. An unknown ID is not an error. A
component outside the range writes past the table of components. -/
def setRegional (n : ℕ) (regions : List SrcRegion) (rid : ℤ) (comp : ℕ) (values : List ℝ)
    (data : ℕ → ℝ) : Res (ℕ → ℝ) :=
  match regionOfId regions rid with
  | none => .ok data
  | some r =>
    if values.length ≠ r.owned.length then .error
    else if r.owned = [] then .ok data
    else if n ≤ comp then .ub
    else .ok (restoreRegionData n r.owned
      (fun c i => if c = comp then values.getD i 0 else getRegionData n r.owned data c i) data)

/-- `/repo/src/rdydata.c:280-301` `SetHomogeneousRegionalSourceComponent`. -/
def setHomogeneous (n : ℕ) (regions : List SrcRegion) (rid : ℤ) (comp : ℕ) (value : ℝ)
    (data : ℕ → ℝ) : Res (ℕ → ℝ) :=
  match regionOfId regions rid with
  | none => .ok data
  | some r =>
    if r.owned = [] then .ok data
    else if n ≤ comp then .ub
    else .ok (restoreRegionData n r.owned
      (fun c i => if c = comp then value else getRegionData n r.owned data c i) data)

/-- `/repo/src/rdydata.c:327-339` `SetDomainSourceComponent`, with the copies at
`/repo/src/operator.c:1345-1375`: like a region made of all owned cells. -/
def setDomain (n numOwned comp : ℕ) (values : List ℝ) (data : ℕ → ℝ) : Res (ℕ → ℝ) :=
  if values.length ≠ numOwned then .error
  else if n ≤ comp then .ub
  else .ok (restoreRegionData n (List.range numOwned)
    (fun c i => if c = comp then values.getD i 0 else getRegionData n (List.range numOwned) data c i)
    data)

/-- `/repo/src/rdydata.c:506-523` `RDySetRegionalManningsN`: here the region is given by its
*index*; there is one material property (`n = 1`). -/
def setRegionalManning (regions : List SrcRegion) (index : ℤ) (values : List ℝ) (data : ℕ → ℝ) :
    Res (ℕ → ℝ) :=
  if (regions.length : ℤ) ≤ index then .error
  else if index < 0 then .error
  else
    match regions[index.toNat]? with
    | none => .ub
    | some r =>
      if values.length ≠ r.owned.length then .error
      else .ok (restoreRegionData 1 r.owned
        (fun c i => if c = 0 then values.getD i 0 else getRegionData 1 r.owned data c i) data)

/-- `/repo/src/rdysetup.c:1257-1272` `InitSourceConditions`: loop over regions; the *index* of the
region is passed where its ID is expected. `srcs` has the source of each region, from index `k`. -/
def initSourcesFrom (n : ℕ) (regions : List SrcRegion) : ℕ → List (Option ℝ) → (ℕ → ℝ) →
    Res (ℕ → ℝ)
  | _, [], data => .ok data
  | k, none :: ss, data => initSourcesFrom n regions (k + 1) ss data
  | k, some v :: ss, data =>
    match setHomogeneous n regions k 0 v data with
    | .ok d => initSourcesFrom n regions (k + 1) ss d
    | .error => .error
    | .ub => .ub

/-- `/repo/src/rdysetup.c:1257-1272`. -/
def initSources (n : ℕ) (regions : List SrcRegion) (srcs : List (Option ℝ)) (data : ℕ → ℝ) :
    Res (ℕ → ℝ) :=
  initSourcesFrom n regions 0 srcs data

/-! ### Boundaries -/

/-- `/repo/src/operator.c:1018-1033` (PETSc), `:981-1006` (CEED): components
`[off, off + m)` of `e` edges are written. -/
def setBoundaryData (total off m numEdges : ℕ) (values : List ℝ) (data : ℕ → ℝ) : ℕ → ℝ :=
  (List.range m).foldl (fun data c =>
    fill data (List.range numEdges) (fun e => total * e + off + c) fun e => values.getD (m * e + c) 0)
    data

/-- What the setters know about a boundary: number of edges and types of conditions (`none`: null
pointer), `/repo/include/private/rdyconditionimpl.h:12-24`. -/
structure BndInfo where
  numEdges : ℕ
  flow : CondType
  sediment : Option CondType
  salinity : Option CondType
  temperature : Option CondType

/-- Physics settings used by the setters (`/repo/include/private/rdyconfigimpl.h:73-132`). -/
structure Phys where
  numClasses : ℕ
  salinityOn : Bool
  heatOn : Bool

/-- Number of components of the operator: 3 for flow, then tracers (`/repo/src/rdydm.c`,
`/repo/src/operator.c:60-75`). -/
def Phys.total (p : Phys) : ℕ :=
  3 + p.numClasses + (if p.salinityOn then 1 else 0) + (if p.heatOn then 1 else 0)

/-- `/repo/src/rdydata.c:78-86` `CheckBoundaryParameters` (with `:24-33`), then the check of the type
of condition (`:100-104` and siblings; a null pointer is followed if there is no condition), then
`SetOperatorBoundaryValues`. `kind` selects the condition, `off` and `m` are the components. -/
def setDirichlet (p : Phys) (bnds : List BndInfo) (kind : BndInfo → Option CondType) (off m : ℕ)
    (b : ℤ) (numEdges : ℕ) (values : List ℝ) (data : ℕ → ℕ → ℝ) : Res (ℕ → ℕ → ℝ) :=
  if (bnds.length : ℤ) ≤ b then .error
  else if b < 0 then .error
  else
    match bnds[b.toNat]? with
    | none => .ub
    | some bnd =>
      if bnd.numEdges ≠ numEdges then .error
      else
        match kind bnd with
        | none => .ub
        | some t =>
          if t ≠ .dirichlet then .error
          else .ok (Function.update data b.toNat
            (setBoundaryData p.total off m numEdges values (data b.toNat)))

/-- `/repo/src/rdydata.c:89-109` `RDySetFlowDirichletBoundaryValues`. The check of `ndof` comes after
that of the boundary; both give errors. -/
def setFlowDirichlet (p : Phys) (bnds : List BndInfo) (b : ℤ) (numEdges ndof : ℕ) (values : List ℝ)
    (data : ℕ → ℕ → ℝ) : Res (ℕ → ℕ → ℝ) :=
  if ndof ≠ 3 then .error
  else setDirichlet p bnds (fun x => some x.flow) 0 3 b numEdges values data

/-- `/repo/src/rdydata.c:111-132` `RDySetSedimentDirichletBoundaryValues`. -/
def setSedimentDirichlet (p : Phys) (bnds : List BndInfo) (b : ℤ) (numEdges numClasses : ℕ)
    (values : List ℝ) (data : ℕ → ℕ → ℝ) : Res (ℕ → ℕ → ℝ) :=
  if numClasses ≠ p.numClasses then .error
  else setDirichlet p bnds BndInfo.sediment 3 numClasses b numEdges values data

/-- `/repo/src/rdydata.c:134-151` `RDySetSalinityDirichletBoundaryValues`. -/
def setSalinityDirichlet (p : Phys) (bnds : List BndInfo) (b : ℤ) (numEdges : ℕ)
    (values : List ℝ) (data : ℕ → ℕ → ℝ) : Res (ℕ → ℕ → ℝ) :=
  if p.salinityOn = false then .error
  else setDirichlet p bnds BndInfo.salinity (3 + p.numClasses) 1 b numEdges values data

/-- `/repo/src/rdydata.c:153-170` `RDySetTemperatureDirichletBoundaryValues`. -/
def setTemperatureDirichlet (p : Phys) (bnds : List BndInfo) (b : ℤ) (numEdges : ℕ)
    (values : List ℝ) (data : ℕ → ℕ → ℝ) : Res (ℕ → ℕ → ℝ) :=
  if p.heatOn = false then .error
  else setDirichlet p bnds BndInfo.temperature
    (3 + p.numClasses + (if p.salinityOn then 1 else 0)) 1 b numEdges values data

/-- `/repo/src/rdysetup.c:740-773`: the information on a boundary after `InitBoundaryConditions`.
No statement sets the temperature condition. -/
def BndInfo.ofCond (numEdges : ℕ) (c : BndCond) : BndInfo :=
  ⟨numEdges, c.flow.type, c.sediment.map Cond.type, c.salinity.map Cond.type, none⟩

/-- `/repo/src/rdysetup.c:1219-1252` `InitDirichletBoundaryConditions`: for each Dirichlet boundary
from index `k` on, the values of the condition's expressions are set on all edges; only the flow
components are set. Any type other than Dirichlet, reflecting and critical outflow is an error. -/
def initDirichletFrom (p : Phys) (bnds : List BndInfo) : ℕ → List (BndInfo × (ℝ × ℝ × ℝ)) →
    (ℕ → ℕ → ℝ) → Res (ℕ → ℕ → ℝ)
  | _, [], data => .ok data
  | k, (b, e) :: rest, data =>
    match b.flow with
    | .dirichlet =>
      match setFlowDirichlet p bnds k b.numEdges 3
          ((List.replicate b.numEdges [e.1, e.2.1, e.2.2]).flatten) data with
      | .ok d => initDirichletFrom p bnds (k + 1) rest d
      | .error => .error
      | .ub => .ub
    | .reflecting => initDirichletFrom p bnds (k + 1) rest data
    | .criticalOutflow => initDirichletFrom p bnds (k + 1) rest data
    | _ => .error

/-! ### Prognostic variables -/

/-- `/repo/src/rdydata.c:171-181` `RDyGetPrognosticVariableOfOwnedCell`: the stride is the literal 3,
whatever the block size of the solution vector. -/
def getPrognostic (numOwned idof : ℕ) (u : ℕ → ℝ) : List ℝ :=
  (List.range numOwned).map fun i => u (3 * i + idof)

/-- `/repo/src/rdydata.c:54-58` `CheckNumOwnedCells` and `:186-205` the three getters. `PetscAssert`
is only compiled in debug mode (`debug`); without it a wrong size is not noticed. -/
def getOwnedCells (debug : Bool) (numOwned size idof : ℕ) (u : ℕ → ℝ) : Res (List ℝ) :=
  if debug && size != numOwned then .error
  else if size < numOwned then .ub
  else .ok (getPrognostic numOwned idof u)

/-- `/repo/src/rdydata.c:392-406` `RDyGetOwnedCellNaturalIDs`: the natural IDs of the owned cells in
local order. -/
def ownedNaturalIds (cells : List (Bool × ℤ)) : List ℤ :=
  (cells.filter fun c => c.1).map Prod.snd

end RDy
