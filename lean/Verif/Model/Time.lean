import Mathlib.Data.Real.Basic

/-!
Model of time-unit conversion and the coupling-interval API
(`/repo/src/rdysetup.c`, `/repo/src/rdyadvance.c`).
-/

namespace RDy

/-- `/repo/include/rdycore.h:58`, defining `RDyTimeUnit` (UNSET = 0, SECONDS … YEARS). -/
inductive TimeUnit
  | unset | seconds | minutes | hours | days | months | years
  deriving DecidableEq, Repr

/-- The integer value of the C enumerator (`RDyTimeUnit` in `/repo/include/rdycore.h:58`). -/
def TimeUnit.index : TimeUnit → ℕ
  | .unset => 0 | .seconds => 1 | .minutes => 2 | .hours => 3
  | .days => 4 | .months => 5 | .years => 6

/-- `/repo/src/rdysetup.c:18` `secs_in_min`. -/
def secsInMin : ℝ := 60
/-- `/repo/src/rdysetup.c:19` `mins_in_hr`. -/
def minsInHr : ℝ := 60
/-- `/repo/src/rdysetup.c:20` `hrs_in_day`. -/
def hrsInDay : ℝ := 24
/-- `/repo/src/rdysetup.c:21` `days_in_mon`. -/
def daysInMon : ℝ := 30
/-- `/repo/src/rdysetup.c:22` `days_in_yr`. -/
def daysInYr : ℝ := 365

/-- The value of `PETSC_ERR_USER` (PETSc's `petscerror.h`).  `SETERRQ` inside a function that
returns `PetscReal` returns this error code *as the time* (`/repo/src/rdysetup.c:65`, `:98`). -/
def petscErrUser : ℝ := 83

/-- `/repo/src/rdysetup.c:41-71` `ConvertTimeToSeconds`. Simplification: real arithmetic. -/
noncomputable def toSeconds (time : ℝ) : TimeUnit → ℝ
  | .seconds => time
  | .minutes => time * secsInMin
  | .hours   => time * minsInHr * secsInMin
  | .days    => time * hrsInDay * minsInHr * secsInMin
  | .months  => time * daysInMon * hrsInDay * minsInHr * secsInMin
  | .years   => time * daysInYr * hrsInDay * minsInHr * secsInMin
  | .unset   => petscErrUser

/-- `/repo/src/rdysetup.c:75-103` `ConvertTimeFromSeconds`. Simplification: real arithmetic. -/
noncomputable def fromSeconds (time : ℝ) : TimeUnit → ℝ
  | .seconds => time
  | .minutes => time / secsInMin
  | .hours   => time / minsInHr / secsInMin
  | .days    => time / hrsInDay / minsInHr / secsInMin
  | .months  => time / daysInMon / hrsInDay / minsInHr / secsInMin
  | .years   => time / daysInYr / hrsInDay / minsInHr / secsInMin
  | .unset   => petscErrUser

/-- `/repo/src/rdyadvance.c:427-432` `RDyConvertTime`. -/
noncomputable def convertTime (unitFrom : TimeUnit) (t : ℝ) (unitTo : TimeUnit) : ℝ :=
  fromSeconds (toSeconds t unitFrom) unitTo

/-- The part of the `RDy` configuration used by the coupling-interval API:
`config.time.unit` and `config.time.coupling_interval`
(`/repo/include/private/rdyconfigimpl.h:146-155`, `RDyTimeSection`). -/
structure CouplingCfg where
  /-- `config.time.unit` -/
  unit : TimeUnit
  /-- `config.time.coupling_interval`, expressed in `unit` -/
  coupling : ℝ

/-- `/repo/src/rdyadvance.c:442-447` `RDyGetCouplingInterval`. -/
noncomputable def getCoupling (c : CouplingCfg) (u : TimeUnit) : ℝ :=
  convertTime c.unit c.coupling u

/-- `/repo/src/rdyadvance.c:450-456` `RDySetCouplingInterval` (no validity check in the code). -/
noncomputable def setCoupling (c : CouplingCfg) (u : TimeUnit) (interval : ℝ) : CouplingCfg :=
  { c with coupling := fromSeconds (toSeconds interval u) c.unit }

end RDy
