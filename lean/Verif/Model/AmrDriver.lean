import Verif.Model.AmrRun
import Verif.Model.Calendar

/-!
# The program for runs with refinement

`/repo/driver/amr.c`: the options that name the refinement data, the files that are read in the
course of a run, the cells that are marked, and the loop of refinements and advances.  The maps
between meshes are those of `Verif.Model.Amr`, marks and label those of `Verif.Model.AmrRun`, dates
and names those of `Verif.Model.Calendar`.  Simplifications: one process, so that natural, global and
local numbers of cells agree; `DMAdaptLabel` is a parameter (its contract is a hypothesis of the
theorems); `RDyAdvance` moves the clock by the coupling interval (C03) and does nothing else here;
`tm_isdst` is as in a zone without summer time.
-/

noncomputable section

namespace RDy

/-! ### Options -/

/-- `/repo/driver/amr.c:34-75` `ParseRefinementDataOptions`: the values of
`-refine_data_start_date` and of `-refine_data_dir` (`none`: not given).  The number of values is not
looked at: with fewer than five the remaining entries of the array `date` are not initialised. -/
def parseRefinementData (date : Option (List ℤ)) (dir : Option Str) : Res (Option (Str × Tm)) :=
  match date with
  | none => .ok none
  | some ds =>
    match dir with
    | none => .error
    | some d =>
      match ds with
      | y :: m :: dd :: h :: mi :: _ => .ok (some (d, ⟨y, m, dd, h, mi, 0⟩))
      | _ => .ub

/-! ### Marking cells -/

/-- Areas and centroids of the cells of the current mesh, as obtained at `/repo/driver/amr.c:92` and
`:128-130`. -/
structure AmrMesh where
  area : ℕ → ℝ
  cent : ℕ → ℝ × ℝ

open Classical in
/-- `/repo/driver/amr.c:77-112` `MarkOwnedCellsForRefinementBasedOnDataset`: cells with a positive
value whose area exceeds the threshold (1/4/2 square metres). -/
def markByData (n : ℕ) (area v : ℕ → ℝ) : List Bool :=
  (List.range n).map fun c => decide (v c > 0 ∧ area c > 1 / 4 / 2)

open Classical in
/-- `/repo/driver/amr.c:114-152` `MarkOwnedCellsForRefinement`: cells with their centroid in a fixed
box. -/
def markByBox (n : ℕ) (cent : ℕ → ℝ × ℝ) : List Bool :=
  (List.range n).map fun c =>
    decide ((cent c).1 > 0 ∧ (cent c).1 < 1 ∧ (cent c).2 > 3 ∧ (cent c).2 < 4)

/-! ### The run -/

/-- The state of the program between two calls (`/repo/driver/amr.c:172-231`): the date of the
refinement data, the matrices of the refinement, the mesh and the clock.  `files` are the files read
so far; `refs` the refinements so far, and `marked` the mesh and the marked cells at each of them
(records for the statements only). -/
structure AmrProg where
  date : Tm
  amr : AmrState
  mesh : AmrMesh
  time : ℝ
  files : List Str
  refs : List Refine
  marked : List (AmrMesh × List ℕ)

/-- What `DMAdaptLabel` returns for a mesh of `n` cells and the labelled cells
(called at `/repo/src/rdyamr.c:165-185`): the children of every cell and the new mesh. -/
abbrev Adapter := ℕ → AmrMesh → List ℕ → Refine × AmrMesh

/-- `/repo/driver/amr.c:105` (`RDyMarkOwnedCellsForAMR`) followed by `:197` or `:226`
(`RDyPerformAMR`, `/repo/src/rdyamr.c:482-716`). -/
def AmrProg.refineMarked (adapt : Adapter) (s : AmrProg) (marks : List Bool) : Res AmrProg :=
  match markCells true s.amr.nCur marks with
  | .error => .error
  | .ub => .ub
  | .ok m =>
    match adaptLabel s.amr.nCur s.amr.nCur (fun _ => true) id s.mesh.cent m with
    | .error => .error
    | .ub => .ub
    | .ok (lab, _) =>
      .ok { s with
        amr := s.amr.refine 1 (adapt s.amr.nCur s.mesh lab).1
        mesh := (adapt s.amr.nCur s.mesh lab).2
        refs := s.refs ++ [(adapt s.amr.nCur s.mesh lab).1]
        marked := s.marked ++ [(s.mesh, lab)] }

/-- `/repo/src/rdydata.c:627-650` `RDyReadAMRScalarGlobalVecLevel0FromBinary`: the file must exist and
hold one value for each cell of the base mesh. -/
def readLevel0 (fs : Str → Option (List ℝ)) (n : ℕ) (name : Str) : Res (ℕ → ℝ) :=
  match fs name with
  | none => .error
  | some v => readElevation n v

/-- `/repo/driver/amr.c:187-198`: the refinement before the first advance.  The vector read has one
entry for each cell of the base mesh, and is indexed by the cells of the current mesh. -/
def AmrProg.first (adapt : Adapter) (fs : Str → Option (List ℝ)) (dir idType : Str) (s : AmrProg) :
    Res AmrProg :=
  match readLevel0 fs s.amr.nBase (datasetFilename dir idType s.date).2 with
  | .error => .error
  | .ub => .ub
  | .ok v =>
    if s.amr.nBase < s.amr.nCur then .ub
    else AmrProg.refineMarked adapt
      { s with
        date := (datasetFilename dir idType s.date).1
        files := s.files ++ [(datasetFilename dir idType s.date).2] }
      (markByData s.amr.nCur s.mesh.area v)

/-- The date of the next file (`/repo/driver/amr.c:206-211`): one minute is added whatever time has
passed; the date is normalised here and again by `DetermineDatasetFilename` (`:22-31`). -/
def nextMinuteDate (t : Tm) : Tm := mktime { t with min := t.min + 1 }

/-- `/repo/driver/amr.c:205-221` and `:226`: the refinements of the loop, with data.  The values are
mapped to the current mesh (`/repo/src/rdydata.c:654-680`), for which the matrix must exist. -/
def AmrProg.again (adapt : Adapter) (fs : Str → Option (List ℝ)) (dir idType : Str) (s : AmrProg) :
    Res AmrProg :=
  match readLevel0 fs s.amr.nBase (datasetFilename dir idType (nextMinuteDate s.date)).2 with
  | .error => .error
  | .ub => .ub
  | .ok v =>
    if s.amr.refined then
      AmrProg.refineMarked adapt
        { s with
          date := (datasetFilename dir idType (nextMinuteDate s.date)).1
          files := s.files ++ [(datasetFilename dir idType (nextMinuteDate s.date)).2] }
        (markByData s.amr.nCur s.mesh.area (matVec s.amr.baseToCurrent (1 * s.amr.nBase) v))
    else .ub

/-- `RDyAdvance` as it concerns this program (`/repo/driver/amr.c:200`, `:227`): the clock moves by the
coupling interval. -/
def AmrProg.advance (coupling : ℝ) (s : AmrProg) : AmrProg := { s with time := s.time + coupling }

/-- The part of `main` before the loop (`/repo/driver/amr.c:187-202`); `data` is the result of
`ParseRefinementDataOptions`. -/
def AmrProg.begin (adapt : Adapter) (fs : Str → Option (List ℝ)) (idType : Str) (coupling : ℝ)
    (data : Option (Str × Tm)) (s : AmrProg) : Res AmrProg :=
  match data with
  | none => .ok (s.advance coupling)
  | some (dir, start) =>
    match AmrProg.first adapt fs dir idType { s with date := start } with
    | .error => .error
    | .ub => .ub
    | .ok s' => .ok (s'.advance coupling)

/-- The body of the loop (`/repo/driver/amr.c:205-227`). -/
def AmrProg.body (adapt : Adapter) (fs : Str → Option (List ℝ)) (idType : Str) (coupling : ℝ)
    (data : Option (Str × Tm)) (s : AmrProg) : Res AmrProg :=
  match (match data with
    | none => AmrProg.refineMarked adapt s (markByBox s.amr.nCur s.mesh.cent)
    | some (dir, _) => AmrProg.again adapt fs dir idType s) with
  | .error => .error
  | .ub => .ub
  | .ok s' => .ok (s'.advance coupling)

open Classical in
/-- The loop (`/repo/driver/amr.c:204-228`), for at most `k` rounds: it ends when the final time is
reached (`RDyFinished`, `/repo/src/rdyadvance.c:388-400`; the times of the configuration are in
seconds). -/
def AmrProg.loop (adapt : Adapter) (fs : Str → Option (List ℝ)) (idType : Str) (coupling final : ℝ)
    (data : Option (Str × Tm)) : ℕ → AmrProg → Res AmrProg
  | 0, s => .ok s
  | k + 1, s =>
    if final - s.time < 1 / 10 ^ 13 then .ok s
    else
      match AmrProg.body adapt fs idType coupling data s with
      | .error => .error
      | .ub => .ub
      | .ok s' => AmrProg.loop adapt fs idType coupling final data k s'

/-- The state after `RDySetup` (`/repo/driver/amr.c:177-181`): a mesh of `n` cells, nothing refined.
The date is set when the options are read. -/
def AmrProg.start (n : ℕ) (mesh : AmrMesh) : AmrProg :=
  ⟨⟨0, 1, 1, 0, 0, 0⟩, AmrState.init n, mesh, 0, [], [], []⟩

/-- The program, with at most `k` rounds of the loop (`/repo/driver/amr.c:154-236`). -/
def amrProgram (adapt : Adapter) (fs : Str → Option (List ℝ)) (idType : Str) (coupling final : ℝ)
    (data : Option (Str × Tm)) (n : ℕ) (mesh : AmrMesh) (k : ℕ) : Res AmrProg :=
  match AmrProg.begin adapt fs idType coupling data (AmrProg.start n mesh) with
  | .error => .error
  | .ub => .ub
  | .ok s => AmrProg.loop adapt fs idType coupling final data k s

end RDy
