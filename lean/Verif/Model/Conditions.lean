import Verif.Model.Boundaries
import Verif.Model.Fields

/-!
Model of the resolution of the names in a configuration: regions of the mesh, their initial conditions and sources
(`/repo/src/rdysetup.c:133-279`, `:592-702`), the checks on flow conditions (`/repo/src/yaml_input.c:1059-1070`), the
parsing of expressions (`:1318-1375`) and their evaluation.

Contract of muParser (not in `/repo`): the functions of its C interface catch all errors. Without an error handler
(RDycore installs none) `mupSetExpr` reports nothing, and `mupEval` of an expression that is empty or cannot be
parsed returns 0. Expressions of conditions are constants.
-/

namespace RDy

/-- `RDyRegionSpec` (`/repo/include/private/rdyconfigimpl.h:287-290`). -/
structure RegionSpec where
  name : Str
  gridId : ℤ
  deriving DecidableEq

/-- One cell set of the mesh: its ID and the local cells in it (`/repo/src/rdysetup.c:216-228`). -/
structure CellSet where
  id : ℤ
  cells : List ℕ
  deriving DecidableEq

/-- `/repo/src/rdysetup.c:233-239`: the name of the first region of the configuration with the ID; the memory is
zeroed, so without one the name is empty. -/
def regionNameOf (cfg : List RegionSpec) (id : ℤ) : Str :=
  match cfg.find? fun s => s.gridId = id with
  | some s => s.name
  | none => []

/-- `/repo/src/rdysetup.c:201-279` `InitRegions`: one region for each cell set of the mesh. `label` is `none` if the
mesh has no cell sets; `MAX_NUM_REGIONS = 32` (`include/private/rdyconfigimpl.h:25`). Every set is taken to have
cells on the process. -/
def initRegions (label : Option (List CellSet)) (cfg : List RegionSpec) : Res (List Region) :=
  match label with
  | none => .error
  | some sets =>
    if 32 < sets.length then .error
    else .ok (sets.map fun s => ⟨regionNameOf cfg s.id, s.id, s.cells⟩)

/-- `RDyRegionConditionSpec` (`/repo/include/private/rdyconfigimpl.h:306-312`); an empty string means "not given". -/
structure RegSpec where
  region : Str
  flow : Str
  sediment : Str
  salinity : Str
  temperature : Str
  deriving DecidableEq

/-- The conditions of a configuration and the physics that are on (`/repo/include/private/rdyconfigimpl.h:87-97`,
`:340-392`). -/
structure CondTables where
  flow : List Cond
  sediment : List Cond
  salinity : List Cond
  temperature : List Cond
  numClasses : ℕ
  salinityOn : Bool
  heatOn : Bool

/-- `RDyCondition` (`/repo/include/private/rdyconditionimpl.h:12-24`) of a region: pointers, `none` if null. -/
structure RegCond where
  flow : Option Cond
  sediment : Option Cond
  salinity : Option Cond
  temperature : Option Cond
  deriving DecidableEq

/-- `/repo/src/rdysetup.c:605-610` and `:668-673`: the first specification for the region. -/
def regSpecOf (specs : List RegSpec) (name : Str) : Option RegSpec := specs.find? fun s => s.region = name

/-- `/repo/src/rdysetup.c:614-621`: the initial flow condition: must be given, exist, and be of Dirichlet type. -/
def icFlow (t : CondTables) (s : RegSpec) : Res Cond :=
  if s.flow = [] then .error
  else match findCond t.flow s.flow with
    | none => .error
    | some c => if c.type = .dirichlet then .ok c else .error

/-- `/repo/src/rdysetup.c:623-631` (sediment), `:633-641` (salinity), `:643-649` (temperature; `checkType` false): the
name must be given; the index found is not checked, so a name that is not found reads element -1: undefined
behaviour. -/
def icTracer (conds : List Cond) (on checkType : Bool) (name : Str) : Res (Option Cond) :=
  if on then
    if name = [] then .error
    else match findCond conds name with
      | none => .ub
      | some c => if checkType && decide (c.type ≠ .dirichlet) then .error else .ok (some c)
  else .ok none

/-- `/repo/src/rdysetup.c:601-651`: the initial conditions of one region. -/
def icOf (t : CondTables) (specs : List RegSpec) (name : Str) : Res RegCond :=
  match regSpecOf specs name with
  | none => .error
  | some s =>
    match icFlow t s with
    | .error => .error
    | .ub => .ub
    | .ok f =>
      match icTracer t.sediment (decide (0 < t.numClasses)) true s.sediment with
      | .error => .error
      | .ub => .ub
      | .ok sed =>
        match icTracer t.salinity t.salinityOn true s.salinity with
        | .error => .error
        | .ub => .ub
        | .ok sal =>
          match icTracer t.temperature t.heatOn false s.temperature with
          | .error => .error
          | .ub => .ub
          | .ok tem => .ok ⟨some f, sed, sal, tem⟩

/-- A loop over regions that stops at the first failure (`/repo/src/rdysetup.c:601`, `:663`). -/
def forRegions {α : Type} (f : Str → Res α) : List Region → Res (List α)
  | [] => .ok []
  | r :: rs =>
    match f r.name with
    | .error => .error
    | .ub => .ub
    | .ok a =>
      match forRegions f rs with
      | .error => .error
      | .ub => .ub
      | .ok l => .ok (a :: l)

/-- `/repo/src/rdysetup.c:594-652` `InitInitialConditions`. -/
def initInitialConditions (t : CondTables) (specs : List RegSpec) (regions : List Region) : Res (List RegCond) :=
  forRegions (icOf t specs) regions

/-- `/repo/src/rdysetup.c:678-687`: the flow source of a region: nothing if not given; else it must exist and be of
runoff type. -/
def srcFlow (t : CondTables) (s : RegSpec) : Res (Option Cond) :=
  if s.flow = [] then .ok none
  else match findCond t.flow s.flow with
    | none => .error
    | some c => if c.type = .runoff then .ok (some c) else .error

/-- `/repo/src/rdysetup.c:662-698`: the sources of one region. Sources of tracers are refused when the tracer is on
and not looked at when it is off. -/
def srcOf (t : CondTables) (specs : List RegSpec) (name : Str) : Res RegCond :=
  match regSpecOf specs name with
  | none => .ok ⟨none, none, none, none⟩
  | some s =>
    match srcFlow t s with
    | .error => .error
    | .ub => .ub
    | .ok f =>
      if 0 < t.numClasses ∧ s.sediment ≠ [] then .error
      else if t.salinityOn = true ∧ s.salinity ≠ [] then .error
      else if t.heatOn = true ∧ s.temperature ≠ [] then .error
      else .ok ⟨f, none, none, none⟩

/-- `/repo/src/rdysetup.c:656-702` `InitSources`; without sources in the configuration nothing is allocated, and
`InitSourceConditions` (`:1260`) does not look at the array either; this is represented by a list of null pointers. -/
def initSourceList (t : CondTables) (specs : List RegSpec) (regions : List Region) : Res (List RegCond) :=
  if specs = [] then .ok (regions.map fun _ => ⟨none, none, none, none⟩)
  else forRegions (srcOf t specs) regions

/-! ### Expressions -/

/-- The text of an expression, as far as it matters: not given, not an expression, or a constant expression with a
value (`/repo/include/private/rdyconfigimpl.h:340-353`). -/
inductive ExprText
  | absent
  | malformed
  | const (v : ℝ)

/-- `expression[0]` is not zero (`/repo/src/yaml_input.c:1064-1068`). -/
def ExprText.given : ExprText → Bool
  | .absent => false
  | _ => true

/-- `mupCreate`, `mupSetExpr` (`/repo/src/yaml_input.c:1347-1358`) and later `mupEval` (`/repo/src/rdysetup.c:861-863`,
`:1234-1236`, `:1266`): see the contract of muParser above. -/
def ExprText.eval : ExprText → ℝ
  | .const v => v
  | _ => 0

/-- `RDyFlowCondition` with its texts (`/repo/include/private/rdyconfigimpl.h:340-353`). -/
structure FlowText where
  name : Str
  type : CondType
  file : Bool
  height : ExprText
  xMomentum : ExprText
  yMomentum : ExprText
  value : ExprText

/-- `/repo/src/yaml_input.c:1059-1070`: the check of a flow condition (a type is always given, since the schema
requires it). -/
def FlowText.accepted (f : FlowText) : Bool :=
  decide (f.type = .reflecting) || decide (f.type = .criticalOutflow) ||
    ((f.height.given || f.file || f.value.given) &&
      (f.file || (f.xMomentum.given && f.yMomentum.given) || f.value.given))

/-- `/repo/src/rdysetup.c:1232-1237`: the values set on each edge of a Dirichlet boundary; the file is not looked
at. -/
def FlowText.onBoundary (f : FlowText) : ℝ × ℝ × ℝ := (f.height.eval, f.xMomentum.eval, f.yMomentum.eval)

/-- `/repo/src/rdysetup.c:857-864`: the initial values where no file is used. -/
def FlowText.initially (f : FlowText) : ℝ × ℝ × ℝ := (f.height.eval, f.xMomentum.eval, f.yMomentum.eval)

/-- `/repo/src/rdysetup.c:1264-1267`: the water source of a region whose source is `f`. -/
def FlowText.asSource (f : FlowText) : ℝ := f.value.eval

/-- `RDyMaterialPropertySpec` (`/repo/include/private/rdyconfigimpl.h:263-268`) with its text. -/
structure PropText where
  file : Bool
  hasFormat : Bool
  value : ExprText

/-- `/repo/src/yaml_input.c:1021-1030` `VALIDATE_MATERIAL_PROPERTY`. -/
def PropText.accepted (p : PropText) : Bool :=
  (p.value.given || p.file) && (p.value.given != p.file) && (!p.file || p.hasFormat)

end RDy
