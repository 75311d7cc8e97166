import Verif.Model.Advance
import Verif.Model.Checkpoint
import Verif.Model.Forcing

/-!
# Runs, their checkpoints and their continuation

A run as a sequence of calls of `RDyAdvance` (`/repo/src/rdyadvance.c:261-383`), with the solution,
the data the right-hand side reads (sources, boundary values), the state of the forcing object and the
clock; the checkpoints written by its monitor (`/repo/src/checkpoint.c:214-234`); and the state of a run
that starts from such a file (`/repo/src/rdysetup.c:1559-1573`).

The right-hand side, the Courant number and the forcing are parameters here, as they are modelled in
`Verif/Model/Operator.lean`, `Courant.lean` and `Forcing.lean`. The solution is taken in natural
ordering, which is the ordering of the file (`Verif/Model/Checkpoint.lean`).
-/

noncomputable section

namespace RDy

/-- What a monitor of the time stepper is called with: step number, time, solution.
`/repo/src/checkpoint.c:214` (the signature of `WriteCheckpoint`). -/
structure Snap (U : Type) where
  t : ℝ
  step : ℕ
  u : U

/-- The parts of the code a run is made of, for the solution `U`, the data of the operator `D` and the
state of the forcing object `Φ`:
* `step`: one step of the time stepper; PETSc's `TSEULER` and `TSRK` keep nothing from one step to the
  next (`/repo/src/rdysetup.c:1181-1192`, right-hand side `:1105-1149`);
* `courant`: the largest Courant number found in a solve (`:1120-1140`, `rdyadvance.c:366-372`);
* `force`: `RDyApplyForcing` (`/repo/src/forcing/rdyforcing.c:688-770`) at a time. -/
structure Physics (U D Φ : Type) where
  step : D → ℝ → U → U
  courant : D → ℝ → List (Snap U) → ℝ
  force : Φ → ℝ → D → Φ × D

/-- The calls of the monitors in one `TSSolve`: before every step and after the last one
(`/repo/src/rdyadvance.c:345-348,362`; the same contract as `tsLoop`, with the solution). `n` is the
number of steps still allowed. -/
def solve {U : Type} (step : ℝ → U → U) (dt maxTime : ℝ) : ℕ → Snap U → List (Snap U)
  | 0, s => [s]
  | n + 1, s =>
    if maxTime ≤ s.t then [s]
    else s :: solve step dt maxTime n
      ⟨s.t + min dt (maxTime - s.t), s.step + 1, step (min dt (maxTime - s.t)) s.u⟩

/-- The state of a run between calls of `RDyAdvance`. `/repo/include/private/rdycoreimpl.h:116-235`. -/
structure RunSt (U D Φ : Type) where
  sim : Sim
  u : U
  data : D
  frc : Φ

variable {U D Φ : Type}

/-- `/repo/src/rdyadvance.c:350-351`: the forcing is applied at the time at which the call starts. -/
def RunSt.forced (P : Physics U D Φ) (r : RunSt U D Φ) : Φ × D := P.force r.frc r.sim.time r.data

/-- The calls of the monitors in one `RDyAdvance`. `/repo/src/rdyadvance.c:293-297,345-364`. -/
def RunSt.trace (P : Physics U D Φ) (r : RunSt U D Φ) : List (Snap U) :=
  solve (P.step (r.forced P).2) r.sim.nextDt (r.sim.time + toSeconds r.sim.coupling r.sim.unit)
    (r.sim.budget r.sim.nextDt (toSeconds r.sim.coupling r.sim.unit)) ⟨r.sim.time, r.sim.step, r.u⟩

/-- `/repo/src/rdyadvance.c:261-383` `RDyAdvance`: the clock is that of `Sim.advance`, the solution is
the one the last call of the monitors is given. -/
def RunSt.advance (P : Physics U D Φ) (r : RunSt U D Φ) : RunSt U D Φ :=
  { sim := r.sim.advance (P.courant (r.forced P).2 r.sim.nextDt (r.trace P))
    u := ((r.trace P).getLastD ⟨r.sim.time, r.sim.step, r.u⟩).u
    data := (r.forced P).2
    frc := (r.forced P).1 }

/-- `n` calls of `RDyAdvance`. `/repo/driver/main.c:56-89`. -/
def RunSt.run (P : Physics U D Φ) (r : RunSt U D Φ) : ℕ → RunSt U D Φ
  | 0 => r
  | n + 1 => (r.run P n).advance P

/-- A checkpoint: the metadata that matter to the run and the solution.
`/repo/src/checkpoint.c:49-75,153-212`. -/
structure CkSnap (U : Type) where
  t : ℝ
  dt : ℝ
  step : ℕ
  u : U

/-- The checkpoints written in one `RDyAdvance`, `/repo/src/checkpoint.c:214-234`: one for each call of
the monitor whose step number is a multiple of the interval. The step size stored is `rdy->dt`, which
`RDyAdvance` has already adapted (`/repo/src/rdyadvance.c:302-343`). -/
def RunSt.written (P : Physics U D Φ) (i : ℤ) (r : RunSt U D Φ) : List (CkSnap U) :=
  ((r.trace P).filter fun s => checkpointDue i s.step).map fun s => ⟨s.t, r.sim.nextDt, s.step, s.u⟩

/-- All checkpoints written in the first `n` calls of `RDyAdvance`, in order.
`/repo/src/checkpoint.c:214-234`. -/
def RunSt.allWritten (P : Physics U D Φ) (i : ℤ) (r : RunSt U D Φ) (n : ℕ) : List (CkSnap U) :=
  (List.range n).flatMap fun j => (r.run P j).written P i

/-- The file found on disk for step `k`: the name depends on the step number only
(`/repo/src/checkpoint.c:141-151,229`), so that the last one written remains (`FILE_MODE_WRITE`,
`:161,165`). -/
def onDisk (files : List (CkSnap U)) (k : ℕ) : Option (CkSnap U) :=
  (files.filter fun f => f.step = k).getLast?

/-- `/repo/src/rdysetup.c:1548-1575` with `/repo/src/checkpoint.c:78-98,118-137,259-317`: a run is set up
as usual (`r0`), then time, step number, step size and solution are replaced by those of the file; the
data of the operator, its diagnostics (not updated) and the forcing object, which is created
afterwards, are those of a new run. -/
def restart (r0 : RunSt U D Φ) (f : CkSnap U) : RunSt U D Φ :=
  { r0 with sim := { r0.sim with time := f.t, step := f.step, dt := f.dt }, u := f.u }

/-- Rainfall of type HOMOGENEOUS as the forcing of a run: the forcing object holds the dataset and its
array, the data are the rainfall rate. `/repo/src/forcing/rdyforcing.c:701-718`,
`/repo/src/forcing/rdyforcing_dataset.c:321-344`. Without any data the code reads outside of the array;
here nothing happens then. -/
def rainForce (φ : Homog × ℝ) (t : ℝ) (_ : ℝ) : (Homog × ℝ) × ℝ :=
  match setHomog φ.1 t (some φ.2) with
  | some (s, some x) => ((s, x), x)
  | _ => (φ, φ.2)

end RDy
