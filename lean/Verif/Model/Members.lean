import Verif.Model.Ensemble
import Verif.Model.Boundaries

/-!
Model of the order in which the materials and conditions of a configuration are checked, replaced by those of an ensemble member, and given parsers (`/repo/src/yaml_input.c:1594-1630`).
-/

namespace RDy

/-- A material's Manning coefficient (`RDyMaterialPropertySpec`, `/repo/include/private/rdyconfigimpl.h:261-280`; schema `/repo/src/yaml_input.c:380-391`): the text of its expression and
the name of its file, empty if absent, whether a format is given for the file, and the text its parser was set to (`none`: a null pointer, as the YAML library leaves it). -/
structure MatEntry where
  expr : Str
  file : Str
  hasFormat : Bool
  value : Option Str

/-- `RDyFlowCondition` (`/repo/include/private/rdyconfigimpl.h:340-353`). -/
structure FlowEntry where
  type : CondType
  height : Str
  xMom : Str
  yMom : Str
  rate : Str
  file : Str
  pHeight : Option Str
  pXMom : Option Str
  pYMom : Option Str
  pRate : Option Str

/-- `RDyComponentCondition` (`/repo/include/private/rdyconfigimpl.h:328-333`). -/
structure CompEntry where
  expr : Str
  file : Str
  value : Option Str

/-- `RDySedimentCondition` (`/repo/include/private/rdyconfigimpl.h:360-364`): one component for each sediment class. -/
structure SedEntry where
  classes : ℕ → CompEntry

/-- `RDySalinityCondition` (`/repo/include/private/rdyconfigimpl.h:371-378`). -/
structure SalEntry where
  expr : Str
  value : Option Str

/-- The sections of a configuration that an ensemble member can replace (`/repo/include/private/rdyconfigimpl.h:399-412`). -/
abbrev CfgSections := Sections MatEntry FlowEntry SedEntry SalEntry Unit

/-- `/repo/src/yaml_input.c:1021-1029` `VALIDATE_MATERIAL_PROPERTY`: an expression or a file but not both, and a format for a file. -/
def checkMat (m : MatEntry) : Bool := (m.expr != [] || m.file != []) && ((m.expr == []) != (m.file == [])) && (m.file == [] || m.hasFormat)

/-- `/repo/src/yaml_input.c:1063-1068`. Simplified: the type is one of the enumeration (`:1062`). -/
def checkFlow (f : FlowEntry) : Bool :=
  (f.type == .reflecting || f.type == .criticalOutflow) ||
    ((f.height != [] || f.file != [] || f.rate != []) && (f.file != [] || (f.xMom != [] && f.yMom != []) || f.rate != []))

/-- `/repo/src/yaml_input.c:1075-1078`, over the sediment classes of the run. -/
def checkSed (n : ℕ) (s : SedEntry) : Bool := (List.range n).all fun j => (s.classes j).expr != [] || (s.classes j).file != []

/-- `/repo/src/yaml_input.c:1085`. -/
def checkSal (s : SalEntry) : Bool := s.expr != []

/-- `/repo/src/yaml_input.c:1018-1032`, `:1059-1086`: the checks of the materials and conditions in `ValidateConfig`, outside the MMS driver. -/
def checkSections (n : ℕ) (s : CfgSections) : Bool :=
  (!s.materials.isEmpty) && s.materials.all (fun e => checkMat e.value) && s.flow.all (fun e => checkFlow e.value) && s.sediment.all (fun e => checkSed n e.value) &&
    s.salinity.all (fun e => checkSal e.value)

/-- `/repo/src/yaml_input.c:1339-1345`: a parser for the expression of a material, if there is one. -/
def compileMat (m : MatEntry) : MatEntry := if m.expr ≠ [] then { m with value := some m.expr } else m

/-- `/repo/src/yaml_input.c:1348-1358`: four parsers. -/
def compileFlow (f : FlowEntry) : FlowEntry := { f with pHeight := some f.height, pXMom := some f.xMom, pYMom := some f.yMom, pRate := some f.rate }

/-- `/repo/src/yaml_input.c:1361-1367`: a parser for each sediment class of the run. -/
def compileSed (n : ℕ) (s : SedEntry) : SedEntry := ⟨fun j => if j < n then { s.classes j with value := some (s.classes j).expr } else s.classes j⟩

/-- `/repo/src/yaml_input.c:1370-1374`. -/
def compileSal (s : SalEntry) : SalEntry := { s with value := some s.expr }

/-- A change of the value of an entry that keeps its name (the loops at `/repo/src/yaml_input.c:1339`, `:1348`, `:1361`, `:1370` change entries in place). -/
def Entry.update {α : Type} (f : α → α) (e : Entry α) : Entry α := ⟨e.name, f e.value⟩

/-- `/repo/src/yaml_input.c:1338-1375` `ParseMathExpressions` without manufactured solutions. -/
def compileSections (n : ℕ) (s : CfgSections) : CfgSections :=
  { s with
    materials := s.materials.map (Entry.update compileMat)
    flow := s.flow.map (Entry.update compileFlow)
    sediment := s.sediment.map (Entry.update (compileSed n))
    salinity := s.salinity.map (Entry.update compileSal) }

/-- `/repo/src/yaml_input.c:1601-1621` `ReadConfigFile` on a process of ensemble member `m` (`none`: no ensemble): checks, replacement of entries, parsers. -/
def readSections (n : ℕ) (base : CfgSections) (m : Option CfgSections) : Res CfgSections :=
  if checkSections n base = false then .error
  else match m with
    | none => .ok (compileSections n base)
    | some m => .ok (compileSections n (applyMember base m))

/-- Where values come from: a file or an expression (`/repo/src/rdysetup.c:508`, `:516-530`). -/
inductive Origin
  | file (name : Str)
  | text (t : Str)
deriving DecidableEq

/-- `/repo/src/rdysetup.c:508-530` `READ_MATERIAL_PROPERTY`: the file if there is one, else the parser; evaluating a null pointer is undefined. -/
def matOrigin (m : MatEntry) : Res Origin :=
  if m.file ≠ [] then .ok (.file m.file)
  else match m.value with
    | none => .ub
    | some t => .ok (.text t)

/-- `/repo/src/rdysetup.c:833-865`: where the initial water height comes from. -/
def heightOrigin (f : FlowEntry) : Res Origin :=
  if f.file ≠ [] then .ok (.file f.file)
  else match f.pHeight with
    | none => .ub
    | some t => .ok (.text t)

end RDy
