import Mathlib.Data.Nat.Digits.Lemmas
import Mathlib.Data.Nat.Log
import Mathlib.Data.Rat.Floor

/-!
Model of output/checkpoint file naming, XDMF batching and the output directory
(`/repo/src/rdyadvance.c`, `/repo/src/xdmf_output.c`, `/repo/src/checkpoint.c`).
-/

namespace RDy

/-- A character string (C `char[]`); truncation at `PETSC_MAX_PATH_LEN` is not modelled.
`/repo/src/rdyadvance.c:69-79`. -/
abbrev Str := List Char

/-- The character of a decimal digit, as `printf` emits it
(used by the `%0Nd` conversions at `/repo/src/rdyadvance.c:74-76`). -/
def digitChar (d : ℕ) : Char := Char.ofNat (48 + d)

/-- Decimal digits, most significant first, of a non-negative integer as printed by `%d`
(`/repo/src/rdyadvance.c:74-76`). -/
def decimal (n : ℕ) : List ℕ := if n = 0 then [0] else (Nat.digits 10 n).reverse

/-- `%0Nd` for a non-negative integer: zero-padded to at least `w` digits
(`/repo/src/rdyadvance.c:74`). -/
def padded (w n : ℕ) : List ℕ := List.replicate (w - (decimal n).length) 0 ++ decimal n

/-- `(int)(log10((double)max_index_val)) + 1` (`/repo/src/rdyadvance.c:72`,
`/repo/src/checkpoint.c:144`).  For `max = 0` the C code converts `-inf` to `int`, which is
undefined: `none`.  Simplification: `log10` is exact. -/
def numDigits (max : ℕ) : Option ℕ := if max = 0 then none else some (Nat.log 10 max + 1)

/-- `/repo/src/rdyadvance.c:69-79` `GenerateIndexedFilename`, for a non-negative index. -/
def indexedFilename (dir pre : Str) (index max : ℕ) (suffix : Str) : Option Str :=
  (numDigits max).map fun w =>
    dir ++ ['/'] ++ pre ++ ['-'] ++ (padded w index).map digitChar ++ ['.'] ++ suffix

/-- `/repo/src/checkpoint.c:141-151` `GenerateE3SMCheckpointFilenameBase` followed by the
extension chosen in `WriteCheckpointFile` (`:158-166`). -/
def checkpointFilename (dir pre : Str) (index max : ℕ) (ext : Str) : Option Str :=
  (numDigits max).map fun w =>
    dir ++ ['/'] ++ pre ++ ".rdycore.r".toList ++ ['.'] ++ (padded w index).map digitChar ++ ext

/-- `/repo/src/rdyadvance.c:101-104`: the number of seconds since the simulation start date that is
encoded in a time-stamped file name: `(time_t)time`, a truncation.  For XDMF output `time` is
expressed in the *configured unit* (`/repo/src/xdmf_output.c:488,495`).
Simplification: non-negative times; calendar arithmetic is `mktime`'s. -/
def stampSeconds (time : ℚ) : ℤ := ⌊time⌋

/-- `mktime`'s normalisation of the (year, month) fields (`month` counted from 0), as relied upon at
`/repo/src/rdyadvance.c:102-104`. -/
def normalizeMonth (year month : ℕ) : ℕ × ℕ := (year + month / 12, month % 12)

/-- `/repo/src/yaml_input.c:939-941` stores the calendar year and month (1–12) unchanged in
`tm_year`/`tm_mon`; `/repo/src/rdyadvance.c:82-89` prints the normalised fields unchanged. -/
def printedYearMonth (year month : ℕ) : ℕ × ℕ := normalizeMonth year month

/-- PETSc file modes used by `WriteXDMFHDF5Data`. `/repo/src/xdmf_output.c:264`. -/
inductive FileMode | write | append
  deriving DecidableEq, Repr

/-- The output settings used for XDMF heavy data
(`/repo/include/private/rdyconfigimpl.h:218-230`, `RDyOutputSection`). -/
structure OutCfg where
  /-- `output.output_interval` (steps; `0` = not given) -/
  outputInterval : ℕ
  /-- `output.batch_size` (≥ 1 after validation, `/repo/src/yaml_input.c:1104-1106`) -/
  batchSize : ℕ
  /-- `time.stop_n` -/
  stopN : ℕ

/-- Integer division of the C code; division by zero is undefined: `none`.
`/repo/src/xdmf_output.c:263`. -/
def cdiv (a b : ℕ) : Option ℕ := if b = 0 then none else some (a / b)

/-- Integer remainder of the C code; by zero is undefined: `none`. `/repo/src/xdmf_output.c:264`. -/
def cmod (a b : ℕ) : Option ℕ := if b = 0 then none else some (a % b)

/-- `/repo/src/rdyadvance.c:117-132`: the index in the name of the HDF5 file that receives the
output of a step (undated file names). -/
def fileIndex (c : OutCfg) (step : ℕ) : Option ℕ :=
  if c.batchSize = 1 then some step
  else (cdiv step c.outputInterval).bind fun d => cdiv d c.batchSize

/-- `/repo/src/rdyadvance.c:117-132`: the maximum index used for padding. -/
def maxIndex (c : OutCfg) : Option ℕ :=
  if c.batchSize = 1 then some c.stopN
  else ((cdiv c.stopN c.outputInterval).bind fun d => cdiv d c.batchSize).map fun m =>
    if m < 1 then 1 else m

/-- `/repo/src/xdmf_output.c:262-264`: whether the file is created or appended to. -/
def fileMode (c : OutCfg) (step : ℕ) : Option FileMode :=
  (cdiv step c.outputInterval).bind fun dataset =>
    (cmod dataset c.batchSize).map fun r => if r = 0 then FileMode.write else FileMode.append

/-- The files of the output directory: for each file index, the steps whose data it holds.
`/repo/src/xdmf_output.c:254-277`. -/
abbrev Files := ℕ → List ℕ

/-- Effect of opening an HDF5 file in the given mode and writing one group (a step's data)
(`/repo/src/xdmf_output.c:268-296`): `FILE_MODE_WRITE` truncates. -/
def Files.put (fs : Files) (f : ℕ) (m : FileMode) (step : ℕ) : Files := fun g =>
  if g = f then (match m with | .write => [step] | .append => fs f ++ [step]) else fs g

/-- `/repo/src/xdmf_output.c:254-322` `WriteXDMFHDF5Data`: write the data of one step.
`none` if the code divides by zero. -/
def writeStep (c : OutCfg) (fs : Files) (step : ℕ) : Option Files :=
  (fileIndex c step).bind fun f => (fileMode c step).map fun m => fs.put f m step

/-- A sequence of output steps. `/repo/src/xdmf_output.c:436-504`. -/
def writeSteps (c : OutCfg) : Files → List ℕ → Option Files
  | fs, [] => some fs
  | fs, s :: ss => (writeStep c fs s).bind fun fs' => writeSteps c fs' ss

/-- `/repo/src/yaml_input.c:1089-1117`: the output settings accepted by validation for XDMF
(`time_interval` is the other way of requesting output; at least one must be given). -/
def acceptedOut (c : OutCfg) (timeInterval : ℕ) : Prop :=
  ¬(c.outputInterval = 0 ∧ timeInterval = 0) ∧ 0 < c.batchSize

/-- `/repo/src/rdyadvance.c:164`: `step % output_interval == 0` in the log monitor of non-XDMF
output. -/
def logMonitor (c : OutCfg) (step : ℕ) : Option Bool :=
  (cmod step c.outputInterval).map fun r => r == 0

/-- What a simulation's configuration says about its directories: `output.directory`,
`ensemble.size` and the member's name. `/repo/src/rdyadvance.c:15-28`. -/
structure DirCfg where
  /-- `config.output.directory` -/
  directory : Str
  /-- `config.ensemble.size` -/
  ensembleSize : ℕ
  /-- `config.ensemble.members[ensemble_member_index].name` -/
  member : Str

/-- The directory a simulation's configuration asks for, computed on a cache miss:
`/repo/src/rdyadvance.c:19-24`. -/
def outputDirOf (c : DirCfg) : Str :=
  if c.ensembleSize > 1 then c.directory ++ ['/'] ++ c.member else c.directory

/-- The same for checkpoints: `/repo/src/checkpoint.c:17-21`. -/
def checkpointDirOf (c : DirCfg) : Str :=
  if c.ensembleSize > 1 then "checkpoints/".toList ++ c.member else "checkpoints".toList

/-- `GetOutputDirectory` (`/repo/src/rdyadvance.c:15-28`) / `GetCheckpointDirectory`
(`/repo/src/checkpoint.c:13-25`) with the process-wide `static` buffer as explicit state: the
buffer is filled on the first call in the process only. -/
def getDir (compute : DirCfg → Str) (cache : Str) (c : DirCfg) : Str × Str :=
  let cache' := if cache = [] then compute c else cache
  (cache', cache')

/-- The directories returned to a sequence of callers in one process. `/repo/src/rdyadvance.c:15-28`. -/
def getDirs (compute : DirCfg → Str) : Str → List DirCfg → List Str
  | _, [] => []
  | cache, c :: cs =>
    let r := getDir compute cache c
    r.1 :: getDirs compute r.2 cs

end RDy
