import Verif.Model.Time
import Mathlib.Algebra.Order.Archimedean.Real.Basic
import Mathlib.Algebra.Order.Floor.Semiring

/-!
Model of the coupling loop: `RDyAdvance`, `RDyFinished` and the driver's loop
(`/repo/src/rdyadvance.c`, `/repo/driver/main.c`).
-/

namespace RDy

/-- `/repo/include/private/rdyconfigimpl.h:138-144` `RDyTimeAdaptiveSection` (the enabled case). -/
structure AdaptiveCfg where
  /-- `target_courant_number` -/
  target : ℝ
  /-- `max_increase_factor` -/
  maxInc : ℝ

/-- `/repo/src/rdyadvance.c:311-312`: the factor by which the step may grow. When the measured
number is `0` the C code computes `target / 0.0 = +inf`, of which `PetscMin` with
`max_increase_factor` is the latter. -/
noncomputable def increaseFactor (a : AdaptiveCfg) (cn : ℝ) : ℝ :=
  if cn = 0 then a.maxInc else min (a.target / cn) a.maxInc

/-- `/repo/src/rdyadvance.c:318`: `if (dt > interval) dt = interval;`. -/
noncomputable def clampTo (interval dt : ℝ) : ℝ := if dt > interval then interval else dt

/-- `/repo/src/rdyadvance.c:302-327`: the adaptive choice of the next time step from the current
one, the measured maximum Courant number and the coupling interval (seconds). -/
noncomputable def adaptDt (a : AdaptiveCfg) (interval dt cn : ℝ) : ℝ :=
  if cn < a.target then
    clampTo interval (dt * increaseFactor a cn)
  else
    dt * (a.target / cn)

/-- The contract assumed of PETSc's `TSSolve` with `TS_EXACTFINALTIME_MATCHSTEP` and a step limit
(`/repo/src/rdyadvance.c:345-348,363`, `/repo/src/rdysetup.c:1203-1206`): steps of size `dt`, the
last one shortened to land on `maxTime`, stopping early once the step budget is used up.
`n` is the remaining step budget `max_steps - step`; the result is (time, steps taken).
Simplification: PETSc may also split the last two steps evenly; not modelled. -/
noncomputable def tsLoop (dt maxTime : ℝ) : ℕ → ℝ → ℝ × ℕ
  | 0, t => (t, 0)
  | n + 1, t =>
    if maxTime ≤ t then (t, 0)
    else
      let r := tsLoop dt maxTime n (t + min dt (maxTime - t))
      (r.1, r.2 + 1)

/-- The size of the last step taken by `tsLoop` when it reaches `maxTime` (`TSGetTimeStep` as seen
by the last right-hand-side evaluation, `/repo/src/rdysetup.c:1127-1128`). `prev` is returned when no
step is taken. -/
noncomputable def tsLastDt (dt maxTime : ℝ) : ℕ → ℝ → ℝ → ℝ
  | 0, _, prev => prev
  | n + 1, t, prev =>
    if maxTime ≤ t then prev
    else tsLastDt dt maxTime n (t + min dt (maxTime - t)) (min dt (maxTime - t))

/-- The part of the simulation state read and written by `RDyAdvance`
(`/repo/include/private/rdycoreimpl.h:116-235`, `struct _p_RDy`; the `TS` clock). -/
structure Sim where
  /-- `TSGetTime`: simulated time in seconds -/
  time : ℝ
  /-- `TSGetStepNumber` -/
  step : ℕ
  /-- `rdy->dt` in seconds -/
  dt : ℝ
  /-- step limit passed to `TSSetMaxSteps` (`none`: not set, adaptive runs; `rdysetup.c:1203-1205`) -/
  maxSteps : Option ℕ
  /-- `config.time.unit` -/
  unit : TimeUnit
  /-- `config.time.stop` in `unit` -/
  stop : ℝ
  /-- `config.time.coupling_interval` in `unit` -/
  coupling : ℝ
  /-- `config.time.adaptive` when enabled -/
  adaptive : Option AdaptiveCfg
  /-- `operator->diagnostics` when `updated`, its maximum Courant number -/
  courant : Option ℝ

/-- Step budget given to the integrator: `max_steps - step`, or (no limit set) the number of steps
it takes to reach the end of the interval. `/repo/src/rdysetup.c:1203-1205`. -/
noncomputable def Sim.budget (s : Sim) (dt interval : ℝ) : ℕ :=
  match s.maxSteps with
  | some m => m - s.step
  | none => ⌈interval / dt⌉₊

/-- The time step chosen at the start of `RDyAdvance` (`/repo/src/rdyadvance.c:296-343`). -/
noncomputable def Sim.nextDt (s : Sim) : ℝ :=
  match s.adaptive, s.courant with
  | some a, some cn => adaptDt a (toSeconds s.coupling s.unit) s.dt cn
  | _, _ => s.dt

/-- `/repo/src/rdyadvance.c:261-383` `RDyAdvance`, the clock part. `cn` is the maximum Courant
number found by the last right-hand-side evaluation of the solve; it is kept (marked `updated`)
only if adaptive stepping is on (`:367-373`).
Simplification: output, forcing and viewer management are modelled elsewhere. -/
noncomputable def Sim.advance (s : Sim) (cn : ℝ) : Sim :=
  let interval := toSeconds s.coupling s.unit
  let dt := s.nextDt
  let r := tsLoop dt (s.time + interval) (s.budget dt interval) s.time
  { s with
    time := r.1
    step := s.step + r.2
    dt := dt
    courant := if s.adaptive.isSome then some cn else none }

/-- `/repo/src/rdyadvance.c:388-400` `RDyFinished`: only the time is tested, with an absolute
tolerance of `1e-13` in the configured unit. -/
def Sim.finished (s : Sim) : Prop :=
  s.stop - fromSeconds s.time s.unit < 1e-13

/-- A run of the driver loop `/repo/driver/main.c:56-89` (body only): one `RDyAdvance` per element,
the element being the Courant number measured in that call. -/
noncomputable def Sim.run (s : Sim) (cns : List ℝ) : Sim := cns.foldl Sim.advance s

end RDy
