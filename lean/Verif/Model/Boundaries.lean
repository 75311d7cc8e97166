import Verif.Model.Config
import Verif.Model.Output
import Mathlib.Data.List.Dedup

/-!
Model of the construction of boundaries and the assignment of boundary conditions
(`/repo/src/rdysetup.c:283-503`, `:706-777`).

An index set (`IS`) of DMPlex points is a list of edge numbers (relative to `e_start`). The label
"Face Sets" is a list of strata in the order in which `DMLabelGetValueIS` returns their values;
PETSc does not promise that this order is increasing. The run is on one process, or equivalently the
`MPI_Allreduce` of the flags has been performed: `inFile` says whether some process has a face set.
-/

namespace RDy

/-- One stratum of the label: its value and its edges. `/repo/src/rdysetup.c:359-362`, `:387`. -/
structure FaceSet where
  id : ℤ
  edges : List ℕ

/-- What the mesh says about edges: `cell_ids` (second one negative if absent) and ownership of
cells (`/repo/include/private/rdymeshimpl.h:26-202`). -/
structure EdgeMesh where
  numEdges : ℕ
  cells : ℕ → ℕ × Option ℕ
  own : ℕ → Bool

/-- `ISDifference` (used at `/repo/src/rdysetup.c:334`, `:400`). -/
def isDiff (a b : List ℕ) : List ℕ := a.filter fun e => !b.contains e

/-- `ISIntersect` (used at `/repo/src/rdysetup.c:399`). -/
def isInter (a b : List ℕ) : List ℕ := a.filter fun e => b.contains e

/-- `/repo/src/rdysetup.c:318-323`: the edge has an owned cell. -/
def edgeValid (m : EdgeMesh) (e : ℕ) : Bool :=
  match (m.cells e).2 with
  | some c2 => m.own (m.cells e).1 || m.own c2
  | none => m.own (m.cells e).1

/-- `/repo/src/rdysetup.c:309-328`: ids of invalid edges. -/
def invalidEdges (m : EdgeMesh) : List ℕ := (List.range m.numEdges).filter fun e => !edgeValid m e

/-- `/repo/src/rdysetup.c:304`, `:330-338`: domain-boundary edges without the invalid ones. -/
def validBoundaryEdges (m : EdgeMesh) (boundaryEdges : List ℕ) : List ℕ :=
  if invalidEdges m = [] then boundaryEdges else isDiff boundaryEdges (invalidEdges m)

/-- `/repo/src/rdysetup.c:383-409`: one pass of the loop over face sets. The state is the ID for
unassigned edges and the set of unassigned edges. -/
def faceSetStep (boundaryEdges : List ℕ) (s : ℤ × List ℕ) (f : FaceSet) : ℤ × List ℕ :=
  (if s.1 = f.id then s.1 + 1 else s.1, isDiff s.2 (isInter f.edges boundaryEdges))

/-- `/repo/src/rdysetup.c:342`, `:383-409`: the whole loop. -/
def assignLoop (m : EdgeMesh) (boundaryEdges : List ℕ) (label : List FaceSet) : ℤ × List ℕ :=
  label.foldl (faceSetStep boundaryEdges) (0, validBoundaryEdges m boundaryEdges)

/-- `DMLabelSetStratumIS` (used at `/repo/src/rdysetup.c:439`): replaces the points of a stratum, or
appends a new stratum. -/
def setStratum : List FaceSet → ℤ → List ℕ → List FaceSet
  | [], id, es => [⟨id, es⟩]
  | f :: fs, id, es => if f.id = id then ⟨id, es⟩ :: fs else f :: setStratum fs id es

/-- `DMLabelGetStratumIS` (used at `/repo/src/rdysetup.c:459`). -/
def getStratum : List FaceSet → ℤ → List ℕ
  | [], _ => []
  | f :: fs, id => if f.id = id then f.edges else getStratum fs id

/-- `RDyBoundary` (`/repo/include/private/rdyboundaryimpl.h:9-16`), without the name. -/
structure Boundary where
  index : ℕ
  id : ℤ
  edges : List ℕ

/-- `/repo/src/rdysetup.c:450-492`: the boundaries for the ids in the file, followed by one for the
unassigned edges if there are any. `label` is the label after the addition. -/
def fetchBoundaries (label : List FaceSet) (ids : List ℤ) : List Boundary :=
  (ids.zipIdx).map fun p => ⟨p.2, p.1, getStratum label p.1⟩

/-- `/repo/src/rdysetup.c:283-503` `InitBoundaries`, in the case that the process has edges on the
domain boundary. `label` is empty if there are no face sets; `inFile` tells whether some process has
a face set with that ID; `cfgIds` are the boundary IDs in the configuration. -/
def initBoundaries (m : EdgeMesh) (boundaryEdges : List ℕ) (label : List FaceSet)
    (inFile : ℤ → Bool) (cfgIds : List ℤ) : Res (List Boundary) :=
  if label.length > 32 then .error
  else if cfgIds.any fun i => !inFile i then .error
  else
    match assignLoop m boundaryEdges label with
    | (id, rest) =>
      if rest = [] then
        if label = [] then .error else .ok (fetchBoundaries label (label.map FaceSet.id))
      else .ok (fetchBoundaries (setStratum label id rest) (label.map FaceSet.id ++ [id]))

/-! ### Boundary conditions -/

/-- Types of flow conditions (`/repo/include/rdycore.h:133-139`). -/
inductive CondType
  | dirichlet | neumann | reflecting | criticalOutflow | runoff
  deriving DecidableEq

/-- A named condition of the configuration (`RDyFlowCondition`, `RDySedimentCondition`, …).
`/repo/include/private/rdyconfigimpl.h:340-392`. -/
structure Cond where
  name : Str
  type : CondType
  deriving DecidableEq

/-- `RDyBoundaryConditionSpec` (`/repo/include/private/rdyconfigimpl.h:315-322`); an empty string
means "not given". -/
structure BcSpec where
  boundaries : List Str
  flow : Str
  sediment : Str
  salinity : Str

/-- `/repo/src/rdysetup.c:134-149` `FindFlowCondition` and its three siblings: the first condition
with the name; `none` is the index -1. -/
def findCond (conds : List Cond) (name : Str) : Option Cond := conds.find? fun c => c.name = name

/-- `/repo/src/rdysetup.c:728-739`: the index of the specification naming the boundary; an error if
there are two. -/
def bcIndexStep (name : Str) (acc : Res (Option BcSpec)) (spec : BcSpec) : Res (Option BcSpec) :=
  match acc with
  | .ok found =>
    if spec.boundaries.contains name then
      match found with
      | none => .ok (some spec)
      | some _ => .error
    else .ok found
  | r => r

/-- The loop of `bcIndexStep` over the specifications (`/repo/src/rdysetup.c:728-739`). -/
def bcIndex (specs : List BcSpec) (name : Str) : Res (Option BcSpec) :=
  specs.foldl (bcIndexStep name) (.ok none)

/-- `RDyCondition` (`/repo/include/private/rdyconditionimpl.h:12-24`), as far as boundary conditions go. -/
structure BndCond where
  flow : Cond
  sediment : Option Cond
  salinity : Option Cond
  auto : Bool
  deriving DecidableEq

/-- `/repo/src/rdysetup.c:709-717`: the reflecting condition put into the first free slot. -/
def reflectingCond (nm : Str) : Cond := ⟨nm, .reflecting⟩

/-- The conditions in a configuration and which physics are on
(`/repo/include/private/rdyconfigimpl.h:461-467`, `RDyPhysicsSection`). -/
structure CondEnv where
  flow : List Cond
  sediment : List Cond
  salinity : List Cond
  numClasses : ℕ
  salinityOn : Bool
  /-- the name given to the reflecting condition, `"reflecting"` -/
  reflName : Str

/-- `/repo/src/rdysetup.c:743-753`: the flow part for a boundary with specification `spec`. -/
def bcFlow (env : CondEnv) (spec : BcSpec) : Res Cond :=
  if spec.flow = [] then .ok (reflectingCond env.reflName)
  else match findCond env.flow spec.flow with
    | some c => .ok c
    | none => .error

/-- `/repo/src/rdysetup.c:755-760` (sediment) and `:762-767` (salinity): an unknown name gives index
-1, hence a pointer before the array: undefined behaviour. -/
def bcTracer (conds : List Cond) (on : Bool) (name : Str) : Res (Option Cond) :=
  if on then
    if name = [] then .error
    else match findCond conds name with
      | some c => .ok (some c)
      | none => .ub
  else .ok none

/-- `/repo/src/rdysetup.c:740-773`: the conditions of one boundary. -/
def bcOf (env : CondEnv) (specs : List BcSpec) (name : Str) : Res BndCond :=
  match bcIndex specs name with
  | .error => .error
  | .ub => .ub
  | .ok none => .ok ⟨reflectingCond env.reflName, none, none, true⟩
  | .ok (some spec) =>
    match bcFlow env spec, bcTracer env.sediment (decide (0 < env.numClasses)) spec.sediment,
        bcTracer env.salinity env.salinityOn spec.salinity with
    | .ok f, .ok s, .ok t => .ok ⟨f, s, t, false⟩
    | .error, _, _ => .error
    | .ub, _, _ => .ub
    | .ok _, .error, _ => .error
    | .ok _, .ub, _ => .ub
    | .ok _, .ok _, .error => .error
    | .ok _, .ok _, .ub => .ub

/-- `/repo/src/rdysetup.c:706-777` `InitBoundaryConditions`: stops at the first error. The capacity
of the table of flow conditions is `MAX_NUM_CONDITIONS = 32`. -/
def initBcs (env : CondEnv) (specs : List BcSpec) : List Str → Res (List BndCond)
  | names =>
    if 32 ≤ env.flow.length then .error
    else names.foldr (fun n acc =>
      match bcOf env specs n, acc with
      | .ok b, .ok l => .ok (b :: l)
      | .ok _, r => r
      | .error, _ => .error
      | .ub, _ => .ub) (.ok [])

end RDy
