import Verif.Model.Restart
import Verif.Model.TimeSeries

/-!
# Runs with the option `-preload`

With this option (for timings) every `RDyAdvance` first takes one step on a copy of the solution, then resets time and
step number and solves (`/repo/src/rdyadvance.c:238-257`, `:355-364`; PETSc's `PetscPreLoadBegin` runs the block twice
if the option is given, the first time with `PetscPreLoadingOn` set).
-/

noncomputable section

namespace RDy

/-- The step size of the time stepper after a step of size `h` from `t`: with `TS_EXACTFINALTIME_MATCHSTEP`
(`/repo/src/rdyadvance.c:346`) PETSc shortens the next step if it would pass the final time (contract of `TSStep`, as in
`tsLoop`). -/
def stepAfter (maxTime t h : ℝ) : ℝ :=
  if t + h < maxTime ∧ maxTime < t + h + h then maxTime - (t + h) else h

/-- The state of the time stepper: time, step number, step size and solution. `/repo/src/rdyadvance.c:345-348`. -/
structure TsState (U : Type) where
  t : ℝ
  step : ℕ
  h : ℝ
  u : U

variable {U D Φ : Type}

/-- `/repo/src/rdyadvance.c:238-257` `CalibrateSolverTimers`: a copy of the solution is given to the time stepper, which
takes a step with it. -/
def calibrate (step : ℝ → U → U) (maxTime : ℝ) (s : TsState U) : TsState U :=
  ⟨s.t + s.h, s.step + 1, stepAfter maxTime s.t s.h, step s.h s.u⟩

/-- `/repo/src/rdyadvance.c:355-364`: what the solve starts with. Time and step number are reset, and `TSSolve` is given
the solution of the run; the step size is the one left behind. -/
def preloaded (step : ℝ → U → U) (maxTime : ℝ) (s : TsState U) : TsState U :=
  { calibrate step maxTime s with t := s.t, step := s.step, u := s.u }

/-- `TSSolve` from a state of the time stepper (`/repo/src/rdyadvance.c:364`), with the step size of that state. -/
def TsState.solveFrom (step : ℝ → U → U) (maxTime : ℝ) (budget : ℕ) (s : TsState U) : List (Snap U) :=
  solve step s.h maxTime budget ⟨s.t, s.step, s.u⟩

/-- The calls of the monitors in one `RDyAdvance`, with or without the option. `/repo/src/rdyadvance.c:345-364`. -/
def RunSt.traceWith (P : Physics U D Φ) (preload : Bool) (r : RunSt U D Φ) : List (Snap U) :=
  if preload then
    (preloaded (P.step (r.forced P).2) (r.sim.time + toSeconds r.sim.coupling r.sim.unit)
      ⟨r.sim.time, r.sim.step, r.sim.nextDt, r.u⟩).solveFrom (P.step (r.forced P).2)
        (r.sim.time + toSeconds r.sim.coupling r.sim.unit)
        (r.sim.budget r.sim.nextDt (toSeconds r.sim.coupling r.sim.unit))
  else r.trace P

/-- `/repo/src/rdyadvance.c:261-383` `RDyAdvance` with or without the option. The Courant number kept is that of the last
evaluation, which belongs to the solve (`/repo/src/rdysetup.c:1135`). -/
def RunSt.advanceWith (P : Physics U D Φ) (preload : Bool) (r : RunSt U D Φ) : RunSt U D Φ :=
  { sim := { r.sim with
      time := ((r.traceWith P preload).getLastD ⟨r.sim.time, r.sim.step, r.u⟩).t
      step := ((r.traceWith P preload).getLastD ⟨r.sim.time, r.sim.step, r.u⟩).step
      dt := r.sim.nextDt
      courant := if r.sim.adaptive.isSome then some (P.courant (r.forced P).2 r.sim.nextDt (r.traceWith P preload)) else none }
    u := ((r.traceWith P preload).getLastD ⟨r.sim.time, r.sim.step, r.u⟩).u
    data := (r.forced P).2
    frc := (r.forced P).1 }

/-- `n` calls of `RDyAdvance`. `/repo/driver/main.c:56-89`. -/
def RunSt.runWith (P : Physics U D Φ) (preload : Bool) (r : RunSt U D Φ) : ℕ → RunSt U D Φ
  | 0 => r
  | n + 1 => (r.runWith P preload n).advanceWith P preload

/-- What the accounting of boundary fluxes sees in one `RDyAdvance` of `k` steps of size `dt` from step `s`, with Euler steps
and the fluxes `f i` in step `i`: with the option, the evaluation of the extra step comes first
(`/repo/src/rdyadvance.c:250`, `:358`). -/
def fluxEvents (preload : Bool) (dt : ℝ) (f : ℕ → ℝ) (s k : ℕ) : List BfEvent :=
  (if preload then [.rhs dt (f s)] else []) ++ [.monitor s dt] ++
    (List.range k).flatMap fun i => [.rhs dt (f (s + i)), .monitor (s + i + 1) dt]

end RDy
