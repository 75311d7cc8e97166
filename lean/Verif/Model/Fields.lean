import Verif.Model.Config
import Verif.Model.Output
import Mathlib.Data.Real.Basic
import Mathlib.Logic.Function.Basic

/-!
Model of the setup of material properties, initial conditions and tracers
(`/repo/src/rdysetup.c:505-652`, `:781-1067`).

Arrays are functions from indices; expressions (`mupEval`) are evaluated to real numbers beforehand;
data read from a file are functions of the local cell number (and component). A parser is created for
every flow, sediment and salinity expression, also for those that are not given
(`/repo/src/yaml_input.c:1347-1376`); muParser evaluates an empty expression to 0, without reporting an
error (there is no error handler). No parser is ever created for temperature; but no temperature
condition can be given in the input either.
-/

namespace RDy

/-- `RDyRegion` (`/repo/include/private/rdyregionimpl.h:8-25`), as built by `InitRegions`
(`/repo/src/rdysetup.c:221-272`): the local cell ids of the region. -/
structure Region where
  name : Str
  id : ℤ
  cells : List ℕ

/-- Ownership and the map of local to owned cells (`/repo/src/rdymesh.c:159-177`). -/
structure CellMap where
  own : ℕ → Bool
  l2o : ℕ → ℕ

/-- `/repo/src/rdysetup.c:248-266`: `owned_cell_global_ids`: owned index of each owned cell of the
region, in order. -/
def Region.ownedIds (r : Region) (cm : CellMap) : List ℕ :=
  (r.cells.filter fun c => cm.own c).map cm.l2o

/-- A loop `for c in cells: a[idx c] = val c`. All loops over cells in
`/repo/src/rdysetup.c:519-532` and `:844-867`, `:962-1055` have this form. -/
def fill {α : Type} (a : ℕ → ℝ) (cells : List α) (idx : α → ℕ) (val : α → ℝ) : ℕ → ℝ :=
  cells.foldl (fun a c => Function.update a (idx c) (val c)) a

/-! ### Materials -/

/-- A material's Manning coefficient: a value, or data from a file
(`/repo/include/private/rdyconfigimpl.h:263-268` `RDyMaterialPropertySpec`). -/
inductive MatProp
  | value (v : ℝ)
  | file (data : ℕ → ℝ)

/-- `RDyMaterialSpec`: name and the one property there is.
`/repo/include/private/rdyconfigimpl.h:272-280`. -/
structure Material where
  name : Str
  manning : MatProp

/-- `RDySurfaceCompositionSpec`: region name, material name.
`/repo/include/private/rdyconfigimpl.h:252-255`. -/
structure Assignment where
  region : Str
  material : Str

/-- `/repo/src/rdysetup.c:516-533`: the property of one material is written to one region. With a
file, entry `c` of the file (`c` counting the cells of the region) goes to the region's `c`-th
cell. -/
def writeMaterial (m : MatProp) (r : Region) (a : ℕ → ℝ) : ℕ → ℝ :=
  match m with
  | .file data => fill a r.cells.zipIdx Prod.fst fun p => data p.2
  | .value v => fill a r.cells id fun _ => v

/-- `/repo/src/rdysetup.c:505-540` `READ_MATERIAL_PROPERTY`: the loops over regions and over
assignments for one material. The name of the material is not consulted. -/
def readMaterial (regions : List Region) (comp : List Assignment) (m : Material) (a : ℕ → ℝ) :
    ℕ → ℝ :=
  regions.foldl (fun a r =>
    comp.foldl (fun a s => if s.region = r.name then writeMaterial m.manning r a else a) a) a

/-- `/repo/src/rdysetup.c:544-560`: each region must have an assignment naming an existing
material. -/
def materialsChecked (regions : List Region) (comp : List Assignment) (mats : List Material) : Bool :=
  regions.all fun r => comp.any fun s => s.region = r.name && mats.any fun m => m.name = s.material

/-- `/repo/src/rdysetup.c:541-590` `InitMaterialProperties`: the property of each local cell
(afterwards copied, `:576-584`, to the owned cells). `none` is the error "no assigned material". -/
def initMaterials (regions : List Region) (comp : List Assignment) (mats : List Material) :
    Option (ℕ → ℝ) :=
  if materialsChecked regions comp mats then
    some (mats.foldl (fun a m => readMaterial regions comp m a) fun _ => 0)
  else none

/-! ### Regional loops with a file vector -/

/-- The loop over regions for one condition (`/repo/src/rdysetup.c:838-869` for flow, `:957-981` for
sediment, `:994-1019` for salinity, `:1030-1055` for temperature). `icName r` is the name of the
region's initial condition (`none`: the pointer is null); `file` is the vector read from the
condition's file, which is destroyed after the first region that uses it. `none` is undefined
behaviour: a null pointer is followed. -/
def regionLoop {D : Type} (icName : Region → Option Str) (condName : Str)
    (onFile : D → Region → (ℕ → ℝ) → (ℕ → ℝ)) (onExpr : Option (Region → (ℕ → ℝ) → (ℕ → ℝ))) :
    List Region → (ℕ → ℝ) → Option D → Option (ℕ → ℝ)
  | [], u, _ => some u
  | r :: rs, u, file =>
    match icName r with
    | none => none
    | some nm =>
      if nm = condName then
        match file with
        | some d => regionLoop icName condName onFile onExpr rs (onFile d r u) none
        | none =>
          match onExpr with
          | some g => regionLoop icName condName onFile onExpr rs (g r u) none
          | none => none
      else regionLoop icName condName onFile onExpr rs u file

/-! ### Flow -/

/-- `RDyFlowCondition` used as initial condition: file data (local cell, component) and/or
expressions for height and momenta. `/repo/include/private/rdyconfigimpl.h:340-353`. -/
structure FlowIc where
  name : Str
  file : Option (ℕ → ℕ → ℝ)
  expr : Option (ℝ × ℝ × ℝ)

/-- `/repo/src/rdysetup.c:844-855`: copying of file data to the owned cells of a region (three
components per cell). -/
def flowFromFile (cm : CellMap) (d : ℕ → ℕ → ℝ) (r : Region) (u : ℕ → ℝ) : ℕ → ℝ :=
  (r.cells.filter fun c => cm.own c).foldl (fun u c =>
    fill u [0, 1, 2] (fun i => 3 * cm.l2o c + i) fun i => d c i) u

/-- `/repo/src/rdysetup.c:860-867`: writing of the expressions' values. -/
def flowFromExpr (cm : CellMap) (e : ℝ × ℝ × ℝ) (r : Region) (u : ℕ → ℝ) : ℕ → ℝ :=
  (r.ownedIds cm).foldl (fun u o =>
    Function.update (Function.update (Function.update u (3 * o) e.1) (3 * o + 1) e.2.1)
      (3 * o + 2) e.2.2) u

/-- `/repo/src/rdysetup.c:801-871`: loop over the conditions. Expressions that are not given evaluate to 0. -/
def initFlow (cm : CellMap) (icName : Region → Option Str) (regions : List Region) :
    List FlowIc → (ℕ → ℝ) → Option (ℕ → ℝ)
  | [], u => some u
  | f :: fs, u =>
    match regionLoop icName f.name (flowFromFile cm) (some (flowFromExpr cm (f.expr.getD (0, 0, 0)))) regions u f.file with
    | some u' => initFlow cm icName regions fs u'
    | none => none

/-- `/repo/src/rdysetup.c:601-619`: the flow condition of a region: that of the first specification
for the region (`none`: an error). -/
def icFlowName (specs : List (Str × Str)) (conds : List FlowIc) (r : Region) : Option Str :=
  match specs.find? fun s => s.1 = r.name with
  | none => none
  | some s => (conds.find? fun c => c.name = s.2).map FlowIc.name

/-! ### Tracers -/

/-- A condition on one component: file data and/or an expression
(`RDyComponentCondition`, `RDySalinityCondition`, `RDyTemperatureCondition`).
`/repo/include/private/rdyconfigimpl.h:328-333`, `:371-392`. -/
structure CompIc where
  name : Str
  file : Option (ℕ → ℝ)
  expr : Option ℝ

/-- `/repo/src/rdysetup.c:962-972` and its siblings: file data go to component `slot`. -/
def compFromFile (cm : CellMap) (ndof slot : ℕ) (d : ℕ → ℝ) (r : Region) (u : ℕ → ℝ) : ℕ → ℝ :=
  fill u (r.cells.filter fun c => cm.own c) (fun c => ndof * cm.l2o c + slot) d

/-- `/repo/src/rdysetup.c:975-978`, `:1013-1016`, `:1049-1052`: an expression goes to component
`slot`. -/
def compFromExpr (cm : CellMap) (ndof slot : ℕ) (v : ℝ) (r : Region) (u : ℕ → ℝ) : ℕ → ℝ :=
  fill u (r.ownedIds cm) (fun o => ndof * o + slot) fun _ => v

/-- One condition on one component (`/repo/src/rdysetup.c:952-981`, `:987-1019`, `:1023-1055`); file
data and expressions may go to different components; an expression that is not given evaluates to 0. -/
def initComp (cm : CellMap) (icName : Region → Option Str) (regions : List Region)
    (ndof slotFile slotExpr : ℕ) (c : CompIc) (u : ℕ → ℝ) : Option (ℕ → ℝ) :=
  regionLoop icName c.name (compFromFile cm ndof slotFile)
    (some (compFromExpr cm ndof slotExpr (c.expr.getD 0))) regions u c.file

/-- A list of conditions, one after the other (`/repo/src/rdysetup.c:987`, `:1023`). -/
def initComps (cm : CellMap) (icName : Region → Option Str) (regions : List Region)
    (ndof slotFile slotExpr : ℕ) : List CompIc → (ℕ → ℝ) → Option (ℕ → ℝ)
  | [], u => some u
  | c :: cs, u =>
    match initComp cm icName regions ndof slotFile slotExpr c u with
    | some u' => initComps cm icName regions ndof slotFile slotExpr cs u'
    | none => none

/-- `RDySedimentCondition`: a file and/or an expression for each size class.
`/repo/include/private/rdyconfigimpl.h:360-364`. -/
structure SedIc where
  name : Str
  file : ℕ → Option (ℕ → ℝ)
  expr : ℕ → Option ℝ

/-- The part of a sediment condition for one size class. `/repo/src/rdysetup.c:946-984`. -/
def SedIc.cls (c : SedIc) (k : ℕ) : CompIc := ⟨c.name, c.file k, c.expr k⟩

/-- What the configuration says about tracers. `/repo/include/private/rdyconfigimpl.h:87-97`. -/
structure TracerCfg where
  numClasses : ℕ
  salinityOn : Bool
  heatOn : Bool
  sediment : List SedIc
  salinity : List CompIc
  temperature : List CompIc
  icSediment : Region → Option Str
  icSalinity : Region → Option Str
  icTemperature : Region → Option Str

/-- Number of tracer components (`/repo/src/rdydm.c`, and check at `/repo/src/rdysetup.c:925-928`). -/
def TracerCfg.ndof (t : TracerCfg) : ℕ :=
  t.numClasses + (if t.salinityOn then 1 else 0) + (if t.heatOn then 1 else 0)

/-- `/repo/src/rdysetup.c:950-982`: the loop over size classes `k, k+1, …` (`n` of them) for one
condition. The vector read from a file is declared outside of the loop, but it can only survive an
iteration if no region uses the condition, in which case it is not used afterwards either. -/
def initSedClasses (cm : CellMap) (t : TracerCfg) (regions : List Region) (c : SedIc) :
    ℕ → ℕ → (ℕ → ℝ) → Option (ℕ → ℝ)
  | 0, _, u => some u
  | n + 1, k, u =>
    match initComp cm t.icSediment regions t.ndof k k (c.cls k) u with
    | some u' => initSedClasses cm t regions c n (k + 1) u'
    | none => none

/-- `/repo/src/rdysetup.c:946-984`: the loop over sediment conditions. -/
def initSediment (cm : CellMap) (t : TracerCfg) (regions : List Region) :
    List SedIc → (ℕ → ℝ) → Option (ℕ → ℝ)
  | [], u => some u
  | c :: cs, u =>
    match initSedClasses cm t regions c t.numClasses 0 u with
    | some u' => initSediment cm t regions cs u'
    | none => none

/-- `/repo/src/rdysetup.c:986-1020`: salinity. File data go to component `num_classes`; expressions
go to component 0. -/
def initSalinity (cm : CellMap) (t : TracerCfg) (regions : List Region) (u : ℕ → ℝ) :
    Option (ℕ → ℝ) :=
  initComps cm t.icSalinity regions t.ndof t.numClasses 0 t.salinity u

/-- `/repo/src/rdysetup.c:1022-1056`: temperature. File data go to component
`num_classes + (salinity ? 1 : 0)`; expressions go to component 0. -/
def initTemperature (cm : CellMap) (t : TracerCfg) (regions : List Region) (u : ℕ → ℝ) :
    Option (ℕ → ℝ) :=
  initComps cm t.icTemperature regions t.ndof (t.numClasses + (if t.salinityOn then 1 else 0)) 0
    t.temperature u

/-- `/repo/src/rdysetup.c:911-1067` `InitTracerSolution`, up to the copy into the solution vector. -/
def initTracers (cm : CellMap) (t : TracerCfg) (regions : List Region) : Option (ℕ → ℝ) :=
  if t.ndof = 0 then some fun _ => 0
  else
    match initSediment cm t regions t.sediment fun _ => 0 with
    | none => none
    | some u =>
      match initSalinity cm t regions u with
      | none => none
      | some u => initTemperature cm t regions u

/-- `/repo/src/rdysetup.c:1058-1062` (tracers, with `off = 3`) and `:872-876` (flow, `off = 0`):
components of a block vector are copied into the solution vector with `total` components per
cell. -/
def scatterComps (n ndof off total numCells : ℕ) (src dst : ℕ → ℝ) : ℕ → ℝ :=
  (List.range n).foldl (fun u i =>
    fill u (List.range numCells) (fun c => total * c + (off + i)) fun c => src (ndof * c + i)) dst

end RDy
