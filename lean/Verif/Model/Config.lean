import Mathlib.Data.Real.Basic
import Mathlib.Algebra.Order.Floor.Ring
import Mathlib.Algebra.Order.Round
import Mathlib.Data.Real.Archimedean
import Verif.Model.Time

/-!
Model of default filling and validation of the time and output sections of a configuration
(`/repo/src/yaml_input.c`), of the time step default (`/repo/src/rdysetup.c:106-116`) and of the
printed names of enumerators.

YAML parsing itself (libcyaml) is not modelled: an omitted optional setting is left at zero because
libcyaml allocates zeroed structures.
-/

namespace RDy

/-- Outcome of a validation step: an accepted value, a reported error, or undefined behaviour.
`/repo/src/yaml_input.c:892-1118`. -/
inductive Res (α : Type)
  | ok (a : α)
  | error
  | ub

/-- `/repo/include/private/rdyconfigimpl.h:22` `INVALID_REAL = -DBL_MAX`. -/
@[irreducible] noncomputable def invalidReal : ℝ := -((2 ^ 53 - 1) * 2 ^ 971)

/-- `/repo/include/private/rdyconfigimpl.h:21` `INVALID_INT = -INT_MAX`. -/
def invalidInt : ℤ := -(2 ^ 31 - 1)

/-- `/repo/include/private/rdyconfigimpl.h:52-56` `RDyFlowSourceMethod`. -/
inductive SourceMethod | semiImplicit | xq2018 | arkImex
  deriving DecidableEq, Repr

/-- `/repo/include/private/rdyconfigimpl.h:110-115` `RDyNumericsTemporal`. -/
inductive Temporal | euler | rk4 | arkImex | beuler
  deriving DecidableEq, Repr

/-- `/repo/include/private/rdyconfigimpl.h:118-122` `RDyNumericsRiemann`. -/
inductive Riemann | roe | upwindRoe | hllc
  deriving DecidableEq, Repr

/-- `/repo/include/private/rdyconfigimpl.h:104-107` `RDyNumericsSpatial`. -/
inductive Spatial | fv | fe
  deriving DecidableEq, Repr

/-- `/repo/include/private/rdyconfigimpl.h:138-143` `RDyTimeAdaptiveSection` (when enabled). -/
structure AdaptiveRaw where
  target : ℝ
  maxInc : ℝ
  initial : ℝ

/-- The settings touched by default filling and time validation
(`/repo/include/private/rdyconfigimpl.h:73-160`). -/
structure Cfg where
  tinyH : ℝ
  hAnuga : ℝ
  method : SourceMethod
  temporal : Temporal
  xqThreshold : ℝ
  numClasses : ℤ
  stop : ℝ
  stopN : ℤ
  timeStep : ℝ
  coupling : ℝ
  unit : TimeUnit
  adaptive : Option AdaptiveRaw
  outputDir : List Char
  fields : List (List Char)

/-- `SET_MISSING_PARAMETER` for reals, `/repo/src/yaml_input.c:849-850`. -/
noncomputable def dfltR (v d : ℝ) : ℝ := if v = 0 then d else v

/-- `SET_MISSING_PARAMETER` for integers, `/repo/src/yaml_input.c:849-850`. -/
def dfltI (v d : ℤ) : ℤ := if v = 0 then d else v

/-- `SET_MISSING_PARAMETER` for the source method; `SOURCE_SEMI_IMPLICIT` is zero
(`/repo/src/yaml_input.c:856-860`). -/
def dfltMethod (t : Temporal) (m : SourceMethod) : SourceMethod :=
  if t = .arkImex then (if m = .semiImplicit then .arkImex else m) else m

/-- `/repo/src/yaml_input.c:876`: default output directory. -/
def defaultDir : List Char := ['o', 'u', 't', 'p', 'u', 't']

/-- `/repo/src/yaml_input.c:879-888`: default output fields. -/
def defaultFields : List (List Char) :=
  [['H', 'e', 'i', 'g', 'h', 't'], ['M', 'o', 'm', 'e', 'n', 't', 'u', 'm', 'X'],
   ['M', 'o', 'm', 'e', 'n', 't', 'u', 'm', 'Y']]

/-- `/repo/src/yaml_input.c:851-889` `SetMissingValues`. The well-balancing default
(`WELL_BALANCING_NONE` = 0) is the identity and omitted. -/
noncomputable def setMissing (c : Cfg) : Cfg :=
  { c with
    tinyH := dfltR c.tinyH 1e-7
    hAnuga := dfltR c.hAnuga 0
    method := dfltMethod c.temporal c.method
    xqThreshold := if dfltMethod c.temporal c.method = .xq2018 then dfltR c.xqThreshold 1e-10
                   else c.xqThreshold
    numClasses := dfltI c.numClasses 0
    stop := dfltR c.stop invalidReal
    stopN := dfltI c.stopN invalidInt
    timeStep := dfltR c.timeStep invalidReal
    coupling := dfltR c.coupling invalidReal
    outputDir := if c.outputDir = [] then defaultDir else c.outputDir
    fields := if c.fields = [] then defaultFields else c.fields }

/-- C conversion of a real to a 32-bit `PetscInt` (truncation toward zero); out of range is
undefined behaviour (`none`). `/repo/src/yaml_input.c:970-985`. -/
noncomputable def truncInt (x : ℝ) : Option ℤ :=
  if (if 0 ≤ x then ⌊x⌋ else ⌈x⌉) ≤ 2 ^ 31 - 1 ∧ -(2 ^ 31) ≤ (if 0 ≤ x then ⌊x⌋ else ⌈x⌉) then
    some (if 0 ≤ x then ⌊x⌋ else ⌈x⌉)
  else none

/-- `/repo/src/yaml_input.c:951-966`: the checks on adaptive time stepping. -/
def adaptiveOk (c : Cfg) (a : AdaptiveRaw) : Prop :=
  0 < a.target ∧ a.target < 1 ∧ 1 < a.maxInc ∧ 0 < a.initial ∧ c.stopN = invalidInt ∧
    c.timeStep = invalidReal

open Classical in
/-- `/repo/src/yaml_input.c:951-966`: adaptive section; sets the time step. -/
noncomputable def applyAdaptive (c : Cfg) : Res Cfg :=
  match c.adaptive with
  | none => .ok c
  | some a => if adaptiveOk c a then .ok { c with timeStep := a.initial } else .error

/-- `/repo/src/yaml_input.c:970-973`: the number of time settings as the code counts them; the
second line compares the integer `stop_n` with `INVALID_REAL`. -/
noncomputable def numTimeSettings (c : Cfg) : ℕ :=
  (if c.stop ≠ invalidReal then 1 else 0) + (if (c.stopN : ℝ) ≠ invalidReal then 1 else 0)
    + (if c.timeStep ≠ invalidReal then 1 else 0)

/-- `/repo/src/yaml_input.c:978-985`: set the third parameter. Real overflow is not modelled. -/
noncomputable def fillThird (c : Cfg) : Res Cfg :=
  if c.stop = invalidReal then .ok { c with stop := c.stopN * c.timeStep }
  else if c.stopN = invalidInt then
    match truncInt (c.stop / c.timeStep) with
    | some n => .ok { c with stopN := n }
    | none => .ub
  else .ok { c with timeStep := c.stop / c.stopN }

/-- `/repo/src/yaml_input.c:951-985`: time validation, applied to a configuration whose missing
values have been set. -/
noncomputable def validateTime (c : Cfg) : Res Cfg :=
  match applyAdaptive c with
  | .ok c' => if numTimeSettings c' = 0 then .error else fillThird c'
  | .error => .error
  | .ub => .ub

open Classical in
/-- `/repo/src/yaml_input.c:989-997`: coupling interval; also returns whether it was specified. -/
noncomputable def validateCoupling (c : Cfg) : Res (Cfg × Bool) :=
  if c.coupling = invalidReal then .ok ({ c with coupling := c.stop }, false)
  else if 0 < c.coupling ∧ c.coupling ≤ c.stop then .ok (c, true)
  else .error

/-- Output section settings used by validation (`/repo/include/private/rdyconfigimpl.h:218-231`). -/
structure OutRaw where
  /-- `format != OUTPUT_NONE` -/
  hasFormat : Bool
  /-- `format == OUTPUT_BINARY` -/
  isBinary : Bool
  outputInterval : ℤ
  timeInterval : ℤ
  timeUnit : TimeUnit
  batchSize : ℤ

/-- `/repo/src/yaml_input.c:1089-1094`: whether output is enabled. -/
def OutRaw.enabled (o : OutRaw) : Prop :=
  o.hasFormat = true ∨ 0 < o.outputInterval ∨ 0 < o.timeInterval

/-- `/repo/src/yaml_input.c:1097-1104`: the checks made when output is enabled (besides those of
the time interval and the field names). -/
def OutRaw.checks (o : OutRaw) : Prop :=
  o.hasFormat = true ∧ ¬ (o.outputInterval = 0 ∧ o.timeInterval = 0) ∧ 0 ≤ o.outputInterval ∧
    0 ≤ o.timeInterval ∧ (o.batchSize = 0 ∨ o.isBinary = false)

/-- `/repo/src/yaml_input.c:1105-1107`: default batch size. -/
def OutRaw.setBatch (o : OutRaw) : OutRaw :=
  if o.batchSize = 0 ∧ o.hasFormat = true ∧ o.isBinary = false then { o with batchSize := 1 } else o

/-- `/repo/src/yaml_input.c:1110`: coupling interval taken from the output time interval. -/
noncomputable def adoptInterval (c : Cfg) (specified : Bool) (o : OutRaw) : Cfg :=
  if specified then c else { c with coupling := o.timeInterval }

/-- `/repo/src/yaml_input.c:1111-1117`: checks on the output time interval
(`PetscEqualReal` is exact equality). -/
def intervalChecks (c : Cfg) (o : OutRaw) : Prop :=
  o.timeUnit ≠ .unset ∧
  toSeconds c.coupling c.unit ≤ toSeconds o.timeInterval o.timeUnit ∧
  ⌊toSeconds o.timeInterval o.timeUnit / toSeconds c.coupling c.unit⌋ * toSeconds c.coupling c.unit
    - toSeconds o.timeInterval o.timeUnit = 0

open Classical in
/-- `/repo/src/yaml_input.c:1088-1118`: output validation. Field-name validation is in a separate
definition. -/
noncomputable def validateOutput (c : Cfg) (specified : Bool) (o : OutRaw) : Res (Cfg × OutRaw) :=
  if o.enabled then
    if o.checks then
      if o.timeInterval = 0 then .ok (c, o.setBatch)
      else if intervalChecks (adoptInterval c specified o) o then
        .ok (adoptInterval c specified o, o.setBatch)
      else .error
    else .error
  else .ok (c, o)

/-- `/repo/src/yaml_input.c:892-1118` `ValidateConfig`, restricted to the time, coupling and output
sections, in the order of the code. The checks of the other sections do not change these values. -/
noncomputable def validate (c : Cfg) (o : OutRaw) : Res (Cfg × OutRaw) :=
  match validateTime c with
  | .ok c1 =>
    match validateCoupling c1 with
    | .ok (c2, sp) => validateOutput c2 sp o
    | .error => .error
    | .ub => .ub
  | .error => .error
  | .ub => .ub

/-- `/repo/src/rdysetup.c:106-121` (`OverrideParameters`): the internal time step in seconds. `dt0` is `rdy->dt`
before, `opt` the value of the option `-dt`; `none` is a division by zero. -/
noncomputable def overrideDt (dt0 : ℝ) (opt : Option ℝ) (c : Cfg) : Option ℝ :=
  match opt with
  | some d => some d
  | none =>
    if dt0 ≤ 0 then
      (if c.stopN = 0 then none else some (toSeconds c.stop c.unit / c.stopN))
    else some (toSeconds dt0 c.unit)

/-- `/repo/src/rdysetup.c:106-121`, called once by `RDySetup` (`:1394`) after `RDyCreate` has set all of the
object to zero (`/repo/src/rdycore.c:161`); nothing else assigns `rdy->dt` in between, so that
`config.time.time_step` is not looked at. -/
noncomputable def initialDt (c : Cfg) : Option ℝ := overrideDt 0 none c

/-! ### Printed names -/

/-- Enumerator values, `/repo/include/private/rdyconfigimpl.h:104-122` and
`/repo/include/rdycore.h:58`. -/
def Spatial.code : Spatial → ℕ | .fv => 0 | .fe => 1
/-- See `Spatial.code`. `/repo/include/private/rdyconfigimpl.h:110-115`. -/
def Temporal.code : Temporal → ℕ | .euler => 0 | .rk4 => 1 | .arkImex => 2 | .beuler => 3
/-- See `Spatial.code`. `/repo/include/private/rdyconfigimpl.h:118-122`. -/
def Riemann.code : Riemann → ℕ | .roe => 0 | .upwindRoe => 1 | .hllc => 2
/-- See `Spatial.code`. `/repo/include/rdycore.h:58`. -/
def TimeUnit.code : TimeUnit → ℕ
  | .unset => 0 | .seconds => 1 | .minutes => 2 | .hours => 3 | .days => 4 | .months => 5 | .years => 6

/-- `/repo/src/yaml_input.c:1695-1698` `SpatialString`; `none` is an out-of-range access. -/
def spatialString (m : Spatial) : Option String :=
  ["finite volume (FV)", "finite element (FE)"][m.code]?

/-- `/repo/src/yaml_input.c:1700-1703` `TemporalString`. -/
def temporalString (m : Temporal) : Option String :=
  ["forward euler", "4th-order Runge-Kutta", "backward euler"][m.code]?

/-- `/repo/src/yaml_input.c:1705-1708` `RiemannString`. -/
def riemannString (m : Riemann) : Option String := ["roe", "hllc"][m.code]?

/-- `/repo/src/yaml_input.c:1719-1722` `TimeUnitString`. -/
def timeUnitString (u : TimeUnit) : Option String :=
  ["seconds", "minutes", "hours", "days", "months", "years"][u.code]?

/-- `/repo/src/rdysetup.c:25-36` `TimeUnitAsString`; the index is `time_unit - 1`. -/
def timeUnitAsString (u : TimeUnit) : Option String :=
  if u.code = 0 then none else ["sec", "min", "hr", "day", "mon", "yr"][u.code - 1]?

end RDy
