import Verif.Model.Config
import Verif.Model.Options

/-!
# The monitors of a run

Everything that is written during a run — fields, checkpoints, time series, log messages — is written
by monitors: functions registered with PETSc's time integrator, which calls all of them at the
beginning of every solve and after every step.  This file models which monitors are registered at
which moment: in `RDySetup`, at the first `RDyAdvance`, at the first `RDyAdvance` of a restarted run,
and when the integrator is replaced by `RDyPerformAMR`.

Modelled as contracts of PETSc: `TSMonitorSet` appends a monitor unless the same function with the same
context is registered already; `TSSolve` calls every registered monitor for every step it reports, from
the step it starts at to the step it ends at; `TSDestroy` forgets the monitors;
`-ts_monitor_solution` in the options database makes `TSSetFromOptions` register a monitor.
-/

namespace RDy

/-- The settings that matter: `rdy->config.output.enable`, `.format`, `.output_interval`, whether
`rdy->config.logging.level >= LOG_DETAIL`, whether `-ts_monitor_solution` is in the options database
when the integrator is made, `rdy->config.checkpoint.interval`,
`rdy->config.output.time_series.boundary_fluxes`, `.observations.interval`
(`/repo/include/private/rdyconfigimpl.h:193-230`). -/
structure MonCfg where
  enable : Bool
  format : OutFormat
  outputInterval : ℕ
  detail : Bool
  option : Bool
  ckInterval : ℕ
  boundaryFluxes : ℕ
  observations : ℕ

/-- A registered monitor: the function together with the context that tells two registrations apart.
`option` is the one registered by `TSSetFromOptions` (`/repo/src/rdysetup.c:1212`), `xdmf`
`WriteXDMFOutput` (`/repo/src/rdyadvance.c:221`), `log` `WriteOutputLogMessage`
(`/repo/src/rdyadvance.c:225`), `solution a` `TSMonitorSolution` with the address `a` of a
`PetscViewerAndFormat`, or with `NULL` (`/repo/src/rdyadvance.c:230`), `checkpoint` `WriteCheckpoint`
(`/repo/src/checkpoint.c:252`), `series` `WriteTimeSeries` (`/repo/src/time_series.c:263`). -/
inductive Mon
  | option | xdmf | log | solution (a : Option ℕ) | checkpoint | series
  deriving DecidableEq

/-- The part of `struct _p_RDy` that decides about monitors: those registered with `rdy->ts`, whether
`rdy->output_viewer` is set, the address `rdy->output_vf` of the live `PetscViewerAndFormat`, the number
of them allocated so far, the step number of `rdy->ts`, `is_a_restart_run`, `restart_step`,
`amr.mesh_was_refined` (`/repo/include/private/rdycoreimpl.h:80-235`).  `trace` records, for every step
that the integrator reported, the monitors called for it. -/
structure MonState where
  ts : List Mon
  viewer : Bool
  vf : Option ℕ
  made : ℕ
  step : ℕ
  isRestart : Bool
  restartStep : ℤ
  refined : Bool
  trace : List (ℕ × List Mon)

/-- `TSMonitorSet` as used at `/repo/src/rdyadvance.c:221`, `:225`, `:230`, `/repo/src/checkpoint.c:252`,
`/repo/src/time_series.c:263`. -/
def monitorSet (m : Mon) (s : MonState) : MonState :=
  if m ∈ s.ts then s else { s with ts := s.ts ++ [m] }

/-- The viewer part of `CreateOutputViewer` (`/repo/src/rdyadvance.c:191-216`): a new
`PetscViewerAndFormat` at the address that the allocator chooses, `alloc k` being its `k`-th choice. -/
def makeViewer (alloc : ℕ → ℕ) (c : MonCfg) (s : MonState) : MonState :=
  if c.format = .xdmf ∨ c.format = .binary ∨ s.viewer = true then
    { s with viewer := true, vf := some (alloc s.made), made := s.made + 1 }
  else s

/-- `/repo/src/rdyadvance.c:224-226`. -/
def setLog (c : MonCfg) (s : MonState) : MonState :=
  if c.detail = true then monitorSet .log s else s

/-- `CreateOutputViewer` (`/repo/src/rdyadvance.c:177-236`); the debug messages are left out. -/
def createViewer (alloc : ℕ → ℕ) (c : MonCfg) (s : MonState) : MonState :=
  if c.enable = true then
    match c.format with
    | .xdmf => monitorSet .xdmf (makeViewer alloc c s)
    | .cgns => setLog c (makeViewer alloc c s)
    | .binary | .none =>
      monitorSet (.solution (makeViewer alloc c s).vf) (setLog c (makeViewer alloc c s))
  else s

/-- `InitTimeSeries` (`/repo/src/time_series.c:252-266`), as far as monitors are concerned. -/
def initSeries (c : MonCfg) (s : MonState) : MonState :=
  if 0 < c.boundaryFluxes ∨ 0 < c.observations then monitorSet .series s else s

/-- `InitSolver` (`/repo/src/rdysetup.c:1174-1216`): a new integrator, with the monitors of the options
database. -/
def initSolverMons (c : MonCfg) : List Mon := if c.option = true then [.option] else []

/-- `InitCheckpoints` (`/repo/src/checkpoint.c:243-255`). -/
def initCheckpoints (c : MonCfg) (s : MonState) : MonState :=
  if c.ckInterval ≠ 0 then monitorSet .checkpoint s else s

/-- What `RDySetup` is asked to restart from (`/repo/src/rdysetup.c:1562-1568`): nothing, or a
checkpoint of the given step, with or without `restart.reinitialize`. -/
inductive Restart
  | none | continued (step : ℕ) | reinitialized (step : ℕ)

/-- `ConsumeMetadata`, `ReadHDF5Metadata` (`/repo/src/checkpoint.c:78-98`, `:118-138`) as far as the step
number is concerned. -/
def readStep (r : Restart) (s : MonState) : MonState :=
  match r with
  | .none => s
  | .continued n => { s with step := n, restartStep := n }
  | .reinitialized _ => { s with restartStep := 0 }

/-- `RDySetup` from the solver on (`/repo/src/rdysetup.c:1549`, `:1558`, `:1562-1568`); `:1393` clears the
flag of refinement. -/
def monSetup (c : MonCfg) (r : Restart) : MonState :=
  match r with
  | .none => initCheckpoints c ⟨initSolverMons c, false, Option.none, 0, 0, false, -1, false, []⟩
  | _ => readStep r (initCheckpoints c ⟨initSolverMons c, false, Option.none, 0, 0, true, 0, false, []⟩)

/-- `/repo/src/rdyadvance.c:264-277`. -/
def startMons (alloc : ℕ → ℕ) (c : MonCfg) (s : MonState) : MonState :=
  if s.step = 0 then initSeries c (createViewer alloc c s) else s

/-- `/repo/src/rdyadvance.c:279-284`. -/
def restartMons (alloc : ℕ → ℕ) (c : MonCfg) (s : MonState) : MonState :=
  if s.isRestart = true ∧ s.restartStep = s.step then createViewer alloc c s else s

/-- `/repo/src/rdyadvance.c:286-291`. -/
def refinedMons (alloc : ℕ → ℕ) (c : MonCfg) (s : MonState) : MonState :=
  if s.refined = true then { createViewer alloc c s with refined := false } else s

/-- Calling a monitor is defined: `TSMonitorSolution` reads its context, which must be live
(`/repo/src/rdyadvance.c:230`); `WriteOutputLogMessage` divides by the interval
(`/repo/src/rdyadvance.c:164`).  What the other monitors do is modelled elsewhere. -/
def callable (c : MonCfg) (s : MonState) (m : Mon) : Prop :=
  match m with
  | .solution a => a.isSome = true ∧ a = s.vf
  | .log => c.outputInterval ≠ 0
  | _ => True

/-- `callable` can be decided (used in the model of `/repo/src/rdyadvance.c:362`). -/
instance (c : MonCfg) (s : MonState) (m : Mon) : Decidable (callable c s m) := by
  unfold callable; split <;> infer_instance

/-- `TSSolve` at `/repo/src/rdyadvance.c:362`, which takes `n` steps, and the destruction of the viewer
when the end of the run is reached (`/repo/src/rdyadvance.c:374-380`, `:153-158`). -/
def solveMons (c : MonCfg) (n : ℕ) (final : Bool) (s : MonState) : Res MonState :=
  if ∀ m ∈ s.ts, callable c s m then
    .ok { s with
      step := s.step + n
      trace := s.trace ++ (List.range (n + 1)).map fun k => (s.step + k, s.ts)
      vf := if final = true then Option.none else s.vf
      viewer := if final = true then false else s.viewer }
  else .ub

/-- `RDyAdvance` (`/repo/src/rdyadvance.c:261-383`) as far as monitors are concerned. -/
def monAdvance (alloc : ℕ → ℕ) (c : MonCfg) (n : ℕ) (final : Bool) (s : MonState) : Res MonState :=
  solveMons c n final (refinedMons alloc c (restartMons alloc c (startMons alloc c s)))

/-- `RDyPerformAMR` (`/repo/src/rdyamr.c:644`, `:693-708`): the integrator is destroyed and made anew, its
step number is restored. -/
def monRefine (c : MonCfg) (s : MonState) : MonState :=
  { s with ts := initSolverMons c, refined := true }

/-- What a program does with the library after `RDySetup`: `RDyAdvance`, which takes `n` steps and may
reach the end of the run; `RDyPerformAMR`; `RDyReadHDF5CheckpointFile` on a checkpoint of the given step
(`/repo/include/rdycore.h:44-52`). -/
inductive RunOp
  | advance (n : ℕ) (final : Bool) | refine | read (step : ℕ)

/-- One call (`/repo/src/rdyadvance.c:261`, `/repo/src/rdyamr.c:482`,
`/repo/src/checkpoint.c:319-323`, here without `restart.reinitialize`). -/
def monOp (alloc : ℕ → ℕ) (c : MonCfg) (s : MonState) : RunOp → Res MonState
  | .advance n final => monAdvance alloc c n final s
  | .refine => .ok (monRefine c s)
  | .read n => .ok (readStep (.continued n) s)

/-- A sequence of calls, as a driver makes them (`/repo/driver/main.c:55-85`,
`/repo/driver/amr.c:166-228`). -/
def monRun (alloc : ℕ → ℕ) (c : MonCfg) (s : MonState) : List RunOp → Res MonState
  | [] => .ok s
  | o :: os =>
    match monOp alloc c s o with
    | .ok s' => monRun alloc c s' os
    | .error => .error
    | .ub => .ub

end RDy
