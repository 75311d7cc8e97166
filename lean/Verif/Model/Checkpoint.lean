import Verif.Model.Output
import Verif.Model.Config
import Mathlib.Data.Real.Basic
import Mathlib.Logic.Equiv.Defs

/-!
Model of checkpoint files (`/repo/src/checkpoint.c`).

The solution is a function from positions in PETSc's global ordering; `order` maps these to the
natural ordering (the numbering of the mesh file, independent of the number of processes), which is
what `DMPlexGlobalToNatural` does. A file is its format, its metadata and its vector; PETSc's readers
and writers are assumed to preserve numbers exactly.
-/

namespace RDy

/-- The state that checkpoints are about: `rdy->nproc`, `TSGetTime`, `rdy->dt`, `TSGetTimeStep`,
`TSGetStepNumber`, `rdy->restart_step`, `rdy->amr.num_refinements > 0`, length and entries of
`rdy->u_global`. `/repo/include/private/rdycoreimpl.h:116-235`. -/
structure CkState where
  nproc : ℕ
  time : ℝ
  dt : ℝ
  tsDt : ℝ
  step : ℤ
  restartStep : ℤ
  refined : Bool
  order : ℕ ≃ ℕ
  size : ℕ
  sol : ℕ → ℝ

/-- `/repo/src/checkpoint.c:153-171`: the two formats. -/
inductive CkFormat
  | binary | hdf5
  deriving DecidableEq

/-- A checkpoint file: format, metadata (`/repo/src/checkpoint.c:49-54`) and the vector
"solution". -/
structure CkFile where
  fmt : CkFormat
  nproc : ℕ
  t : ℝ
  dt : ℝ
  step : ℤ
  size : ℕ
  data : ℕ → ℝ

/-- `/repo/src/checkpoint.c:153-212` `WriteCheckpointFile`: metadata `:58-75` (binary), `:101-116`
(HDF5); the vector is written in natural ordering, or, if the mesh was refined, in global ordering
(`:190-198`). -/
def ckWrite (s : CkState) (fmt : CkFormat) : CkFile :=
  ⟨fmt, s.nproc, s.time, s.dt, s.step, s.size,
    if s.refined then s.sol else fun n => s.sol (s.order.symm n)⟩

/-- `".bin"` and `".h5"`. `/repo/src/checkpoint.c:268`. -/
def extBin : Str := ['.', 'b', 'i', 'n']

/-- See `extBin`. `/repo/src/checkpoint.c:270`. -/
def extH5 : Str := ['.', 'h', '5']

/-- `/repo/src/checkpoint.c:160,164`: suffix given to a file of each format. -/
def CkFormat.ext : CkFormat → Str
  | .binary => extBin
  | .hdf5 => extH5

/-- C's `strstr(name, sub) != NULL`. `/repo/src/checkpoint.c:268-278`. -/
def contains (sub name : Str) : Bool := name.tails.any fun t => sub.isPrefixOf t

/-- `/repo/src/checkpoint.c:79-98` `ConsumeMetadata`. -/
def consumeMetadata (reinit : Bool) (f : CkFile) (s : CkState) : CkState :=
  { s with
    nproc := f.nproc
    dt := f.dt
    time := if reinit then 0 else f.t
    step := if reinit then s.step else f.step
    restartStep := if reinit then 0 else f.step
    tsDt := f.dt }

/-- `/repo/src/checkpoint.c:118-137` `ReadHDF5Metadata`: the step size of the time stepper is not
set. -/
def readHdf5Metadata (reinit : Bool) (f : CkFile) (s : CkState) : CkState :=
  { s with
    nproc := f.nproc
    dt := f.dt
    time := if reinit then 0 else f.t
    step := if reinit then s.step else f.step
    restartStep := if reinit then 0 else f.step }

/-- `/repo/src/checkpoint.c:293-310`: loading of the vector (`VecLoad` fails if the lengths differ). -/
def loadSolution (f : CkFile) (s : CkState) : Res CkState :=
  if f.size ≠ s.size then .error
  else .ok { s with sol := if s.refined then f.data else fun g => f.data (s.order g) }

/-- `/repo/src/checkpoint.c:259-317` `ReadCheckpointFile`. The viewer is chosen by the first of
".bin", ".h5" found anywhere in the name (opening a file of the other format is an error), the kind of
metadata by ".h5" alone: with both in the name, HDF5 functions are called on a binary viewer (`ub`). -/
def ckRead (reinit : Bool) (name : Str) (f : CkFile) (s : CkState) : Res CkState :=
  if contains extBin name then
    if f.fmt ≠ .binary then .error
    else if contains extH5 name then .ub
    else loadSolution f (consumeMetadata reinit f s)
  else if contains extH5 name then
    if f.fmt ≠ .hdf5 then .error
    else loadSolution f (readHdf5Metadata reinit f s)
  else .error

/-- `/repo/src/checkpoint.c:244-256` `InitCheckpoints` (the monitor is only installed for a nonzero
interval) and `:217` (C's remainder). -/
def checkpointDue (interval step : ℤ) : Bool :=
  interval ≠ 0 && step.tmod interval == 0

/-- Steps at which a run writes checkpoints, for the sequence of monitor calls.
`/repo/src/checkpoint.c:79-98`. -/
def checkpointSteps (interval : ℤ) (calls : List ℕ) : List ℕ :=
  calls.filter fun k => checkpointDue interval k

end RDy
