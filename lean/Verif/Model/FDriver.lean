import Verif.Model.Calendar
import Verif.Model.ForcingData
import Verif.Model.ForcingOptions
import Verif.Model.Fortran
import Verif.Model.MmsRun
import Verif.Model.Restart

/-!
# The Fortran driver

`/repo/driver/main.F90`: the second of the two programs users run. It has its own code for rainfall and
boundary data, controlled by the options that control the code of the library
(`/repo/src/forcing/rdyforcing.c`), and calls the setters of the library before each `RDyAdvance`, which in
turn applies the data of the library (`/repo/src/rdyadvance.c:351`).

Texts are those Fortran passes on: without the blanks at their end. A file is the list of the entries of the
vector it holds. `write` with too narrow a field gives asterisks. Reading or writing outside of an array,
and using a variable that has no value, is `.ub` or `none`.
-/

noncomputable section

namespace RDy

/-! ### Options -/

/-- `/repo/driver/main.F90:243-269`: the raster is selected by its directory; the date must then have five
numbers (`PetscOptionsGetIntArray` returns none if the option is not given). -/
def fRasterStage (o : ForcingOpts) : Res (Option DataSel) :=
  match o.rasterDir with
  | none => .ok none
  | some dir =>
    if ((o.rasterDate.getD []).take 5).length ≠ 5 then .error
    else .ok (some (.raster dir ((o.rasterDate.getD []).take 5)))

/-- `/repo/driver/main.F90:271-306`: the same for unstructured data, with the file of the mesh. -/
def fUnsStage (o : ForcingOpts) : Res (Option DataSel) :=
  match o.unsDir with
  | none => .ok none
  | some dir =>
    if ((o.unsDate.getD []).take 5).length ≠ 5 then .error
    else
      match o.unsMesh with
      | none => .error
      | some mesh => .ok (some (.unstructured dir mesh ((o.unsDate.getD []).take 5)))

/-- `ParseRainfallDataOptions`, `/repo/driver/main.F90:202-308`. -/
def fParseRain (o : ForcingOpts) : Res DataSel :=
  runStages 0 .unset [constantStage o, homStage o, fRasterStage o, fUnsStage o]

/-- `ParseBoundaryDataOptions`, `/repo/driver/main.F90:314-388`: as in the library (`unsStage`), without
datasets for several boundaries. -/
def fParseBoundary (o : ForcingOpts) : Res DataSel := runStages 0 .unset [homStage o, unsStage o]

/-- `-rain`, `/repo/driver/main.F90:1506`, `:1515-1518`, `:1578-1581`: the file is opened and closed, and its
contents are not used; `fs` are the files that can be read. -/
def fRainOption (fs : Str → Option (List ℝ)) (file : Option Str) : Res Unit :=
  match file with
  | none => .ok ()
  | some f => if (fs f).isSome then .ok () else .error

/-! ### Time series -/

/-- `getcurrentdata`, `/repo/driver/main.F90:166-183`: the search of the interval, with indices from 1; `p i` is
`data_ptr(i)`. -/
def fBracket (p : ℕ → ℝ) (n : ℕ) (t : ℝ) : Option ℕ :=
  ((List.range (n - 1)).map (· + 1)).find? fun i =>
    decide (p ((i - 1) * 2 + 1) ≤ t ∧ t < p ((i - 1) * 2 + 3))

/-- `getcurrentdata`, `/repo/driver/main.F90:153-195`. With `ndata = 0` the code reads `data_ptr(0)`. -/
def fGetCurrentData (p : ℕ → ℝ) (n : ℕ) (t : ℝ) (interp : Bool) : Option (ℕ × ℝ) :=
  if n = 0 then none
  else
    match fBracket p n t with
    | none => some (n, p ((n - 1) * 2 + 2))
    | some i =>
      if interp then
        some (i, (t - p ((i - 1) * 2 + 1)) / (p ((i - 1) * 2 + 3) - p ((i - 1) * 2 + 1)) *
          (p ((i - 1) * 2 + 4) - p ((i - 1) * 2 + 2)) + p ((i - 1) * 2 + 2))
      else some (i, p ((i - 1) * 2 + 2))

/-! ### Dates and names of files -/

/-- The condition of `day_of_month`, `/repo/driver/main.F90:576`: `/` is the division of integers. -/
def fLeap (y : ℤ) : Bool := y.tdiv 400 == 0 || (y.tdiv 4 == 0 && y.tdiv 100 != 0)

/-- `day_of_month`, `/repo/driver/main.F90:566-583`; without a value for months that do not exist. -/
def fDaysOfMonth (y m : ℤ) : Option ℤ :=
  if m = 2 then some (if fLeap y then 29 else 28)
  else if m = 4 ∨ m = 6 ∨ m = 9 ∨ m = 11 then some 30
  else if m = 1 ∨ m = 3 ∨ m = 5 ∨ m = 7 ∨ m = 8 ∨ m = 10 ∨ m = 12 then some 31
  else none

/-- `IncrementDateByOneHour`, `/repo/driver/main.F90:586-614`. -/
def fNextDate (t : Tm) : Option Tm :=
  if t.hour + 1 ≠ 24 then some { t with hour := t.hour + 1 }
  else
    match fDaysOfMonth t.year t.mon with
    | none => none
    | some n =>
      if t.day + 1 ≤ n then some { t with hour := 0, day := t.day + 1 }
      else if t.mon + 1 ≤ 12 then some { t with hour := 0, day := 1, mon := t.mon + 1 }
      else some { t with hour := 0, day := 1, mon := 1, year := t.year + 1 }

/-- Edit descriptor `I4` (`/repo/driver/main.F90:520`) for numbers that are not negative. -/
def fI4 (n : ℤ) : Str := if 0 ≤ n ∧ n ≤ 9999 then padBlank 4 n else "****".toList

/-- Edit descriptor `I2.2` (`/repo/driver/main.F90:520`). -/
def fI22 (n : ℤ) : Str := if 0 ≤ n ∧ n ≤ 99 then pad 2 n else "**".toList

/-- `DetermineDatasetFilename`, `/repo/driver/main.F90:507-522`. The length of the name is not limited here. -/
def fName (dir idType : Str) (t : Tm) : Str :=
  dir.take (lenTrim dir) ++ ['/'] ++ fI4 t.year ++ ['-'] ++ fI22 t.mon ++ ['-'] ++ fI22 t.day ++ [':'] ++
    fI22 t.hour ++ ['-'] ++ fI22 t.min ++ ['.'] ++ idType ++ ".bin".toList

/-- The first file: `/repo/driver/main.F90:532-552`, `:640-660`. -/
def fOpenFirst (dir idType : Str) (start : Tm) : DatedFile := ⟨start, 1, fName dir idType start⟩

/-- `SetRasterData` and `SetUnstructuredData`, `/repo/driver/main.F90:1174-1178`, `:1400-1404`, as far as files
are concerned: `t` is the time in the unit of the configuration (`:1543`). -/
def fStepFile (dir idType : Str) (s : DatedFile) (t : ℝ) : Option DatedFile :=
  if t / 3600 ≥ (s.count : ℝ) * 1 then
    (fNextDate s.date).map fun d => ⟨d, s.count + 1, fName dir idType d⟩
  else some s

/-- The names of the files used by a sequence of calls at the given times,
`/repo/driver/main.F90:1158-1186`, `:1386-1416`. -/
def fNameHistory (dir idType : Str) : DatedFile → List ℝ → Option (List Str)
  | _, [] => some []
  | s, t :: ts =>
    match fStepFile dir idType s t with
    | none => none
    | some s' => (fNameHistory dir idType s' ts).map fun r => s'.name :: r

/-! ### Spatial maps -/

/-- `/repo/driver/main.F90:999-1006`: centre of the raster cell in row `irow` and column `icol`, both counted
from 1. -/
def fRasterCentre (r : Raster) (irow icol : ℕ) : ℝ × ℝ :=
  (r.xlc + ((icol : ℝ) - 1) * r.size + r.size / 2,
   r.ylc + ((r.nrows : ℝ) - (irow : ℝ)) * r.size + r.size / 2)

/-- `CreateRasterDatasetMapping`, `/repo/driver/main.F90:958-970`: one step; `count` is counted from 1, row and
column belong to it. The second part of the state is the entry of the map, `none` as long as it has no value. -/
def fRasterStep (p : ℝ × ℝ) (r : Raster) (s : ℝ × Option ℕ) (count : ℕ) : ℝ × Option ℕ :=
  if dist2D p (fRasterCentre r ((count - 1) / r.ncols + 1) ((count - 1) % r.ncols + 1)) < s.1 then
    (dist2D p (fRasterCentre r ((count - 1) / r.ncols + 1) ((count - 1) % r.ncols + 1)), some count)
  else s

/-- `CreateRasterDatasetMapping`, `/repo/driver/main.F90:938-973`, for one cell. -/
def fNearestRaster (p : ℝ × ℝ) (r : Raster) : Option ℕ :=
  (((List.range (r.nrows * r.ncols)).map (· + 1)).foldl (fRasterStep p r)
    ((((max r.ncols r.nrows : ℕ) : ℝ) + 1) * r.size, none)).2

/-- `CreateUnstructuredDatasetMap`, `/repo/driver/main.F90:876-896`: one step, with `count` from 1; the points
`pts` are counted from 0. -/
def fNearestStep (p : ℝ × ℝ) (pts : ℕ → ℝ × ℝ) (s : Option (ℝ × ℕ)) (count : ℕ) : Option (ℝ × ℕ) :=
  match s with
  | none => some (dist2D p (pts (count - 1)), count)
  | some (m, i) =>
    if dist2D p (pts (count - 1)) < m then some (dist2D p (pts (count - 1)), count) else some (m, i)

/-- `CreateUnstructuredDatasetMap`, `/repo/driver/main.F90:862-898`, for one element; without a value if there
are no data points. -/
def fNearestUnstructured (p : ℝ × ℝ) (pts : ℕ → ℝ × ℝ) (n : ℕ) : Option ℕ :=
  (((List.range n).map (· + 1)).foldl (fNearestStep p pts) none).map Prod.snd

/-- `ReadRainfallDatasetMap`, `/repo/driver/main.F90:901-934`, on all processes: the vector is distributed
as by the library (`readMapFile`), but its *global* size is compared with the number of the cells of the
process. -/
def fReadMapFile (n : ℕ) (ranks : List (List ℕ)) (file : List ℝ) : Res (List (List ℤ)) :=
  match readMapFile n ranks file with
  | .ok maps => if ∀ cells ∈ ranks, n = cells.length then .ok maps else .error
  | .error => .error
  | .ub => .ub

/-- The contents of the map file after the start of a run of the Fortran driver with `-…_write_map_file`: the
library writes its map in `RDySetup` (`/repo/src/forcing/rdyforcing.c:107-109`, `:280-282`), then the driver
writes its own to the same file (`WriteMap`, `/repo/driver/main.F90:703-730`, called at `:1021-1023` and
`:1058-1060`), whose entries are counted from 1. `maps` are the maps of the library, which the driver finds too. -/
def fWrittenMapFile (n : ℕ) (ranks maps : List (List ℕ)) : List ℝ :=
  writeMapFile n ranks (maps.map fun m => m.map (· + 1))

/-! ### Values -/

/-- A raster or unstructured dataset, `/repo/driver/main.F90:34-93`: the open file and the map, whose entries
are counted from 1 and may have no value. -/
structure FDated where
  dir : Str
  date : Tm
  /-- `ndata_file` -/
  count : ℕ
  /-- `data_ptr`, from index 1 -/
  file : List ℝ
  stride : ℤ
  map : ℕ → Option ℤ

/-- `SourceSink` or `BoundaryCondition`, `/repo/driver/main.F90:95-116`. -/
inductive FSrc
  | unset
  | constant (rate : ℝ)
  | homogeneous (data : List ℝ) (interp : Bool)
  | raster (s : FDated)
  | unstructured (s : FDated)

/-- `OpenRasterDataset`, `/repo/driver/main.F90:532-563`: five entries are read. -/
def fOpenRaster (fs : Str → Option (List ℝ)) (name : Str) : Res (List ℝ) :=
  match fs name with
  | none => .error
  | some f => if f.length < 5 then .ub else .ok f

/-- `OpenUnstructuredDataset`, `/repo/driver/main.F90:640-677`; the second result is the stride. `expected` is
`none` when a later file is opened: there the argument is the component `data%stride` itself (`:680-700`), which
has been overwritten when it is looked at. -/
def fOpenUns (fs : Str → Option (List ℝ)) (name : Str) (expected : Option ℤ) : Res (List ℝ × ℤ) :=
  match fs name with
  | none => .error
  | some f =>
    match f with
    | a :: b :: rest =>
      if toPetscInt b = 0 then .ub
      else if (rest.length : ℤ).tdiv (toPetscInt b) ≠ toPetscInt a then .error
      else if expected.getD (toPetscInt b) ≠ toPetscInt b then .error
      else .ok (f, toPetscInt b)
    | _ => .ub

/-- Entry `i` of `data_ptr`, counted from 1, `/repo/driver/main.F90:1183`. -/
def fEntry (file : List ℝ) (i : ℤ) : Option ℝ := if 1 ≤ i then file[(i - 1).toNat]? else none

/-- All values, or undefined behaviour if one of them is missing. `/repo/driver/main.F90:1180-1184`. -/
def fAll {α : Type} : List (Option α) → Res (List α)
  | [] => .ok []
  | none :: _ => .ub
  | some a :: l =>
    match fAll l with
    | .ok r => .ok (a :: r)
    | .error => .error
    | .ub => .ub

/-- `SetRasterData`, `/repo/driver/main.F90:1180-1184`, with the open file. -/
def fRasterValues (s : FDated) (n : ℕ) : Res (List ℝ) :=
  fAll ((List.range n).map fun i =>
    (s.map i).bind fun k => (fEntry s.file (k + 5)).map (· * (1 / (1000 * 3600))))

/-- `SetUnstructuredData`, `/repo/driver/main.F90:1406-1414`, with the open file, for an array of `m` values for
each of `n` elements. Simplification: any stride other than `m` is undefined behaviour; with a larger one the
code writes behind the array, with a smaller one it leaves entries as they were. -/
def fUnsValues (s : FDated) (n m : ℕ) : Res (List ℝ) :=
  if s.stride ≠ (m : ℤ) then .ub
  else fAll ((List.range n).flatMap fun i => (List.range m).map fun ii : ℕ =>
    (s.map i).bind fun k => fEntry s.file ((k - 1) * s.stride + ((ii : ℤ) + 1) + 2))

/-- The next file of a raster, `OpenNextRasterDataset`, `/repo/driver/main.F90:617-637`, `:1174-1178`. -/
def fRasterNext (fs : Str → Option (List ℝ)) (idType : Str) (s : FDated) (t : ℝ) : Res FDated :=
  if t / 3600 ≥ (s.count : ℝ) * 1 then
    match fNextDate s.date with
    | none => .ub
    | some d =>
      match fOpenRaster fs (fName s.dir idType d) with
      | .ok f => .ok { s with date := d, count := s.count + 1, file := f }
      | .error => .error
      | .ub => .ub
  else .ok s

/-- The next file of an unstructured dataset, `OpenNextUnstructuredDataset`, `/repo/driver/main.F90:680-700`,
`:1400-1404`. -/
def fUnsNext (fs : Str → Option (List ℝ)) (idType : Str) (s : FDated) (t : ℝ) : Res FDated :=
  if t / 3600 ≥ (s.count : ℝ) * 1 then
    match fNextDate s.date with
    | none => .ub
    | some d =>
      match fOpenUns fs (fName s.dir idType d) none with
      | .ok f => .ok { s with date := d, count := s.count + 1, file := f.1, stride := f.2 }
      | .error => .error
      | .ub => .ub
  else .ok s

/-- The values for the `n` owned cells of the process: the calls of `SetConstantRainfall`,
`SetHomogeneousData`, `SetRasterData` and `SetUnstructuredData` in `ApplyRainfallDataset`,
`/repo/driver/main.F90:1106-1186`, `:1204-1227`. `t` is the time in the unit of the configuration. -/
def fRainValues (fs : Str → Option (List ℝ)) (idType : Str) (n : ℕ) (t : ℝ) : FSrc → Res (FSrc × List ℝ)
  | .unset => .ok (.unset, [])
  | .constant rate => .ok (.constant rate, List.replicate n rate)
  | .homogeneous d interp =>
    match fGetCurrentData (fun i => d.getD (i - 1) 0) (d.length / 2) t interp with
    | none => .ub
    | some (_, x) => .ok (.homogeneous d interp, List.replicate n x)
  | .raster s =>
    (fRasterNext fs idType s t).andThen fun s' => (fRasterValues s' n).andThen fun v => .ok (.raster s', v)
  | .unstructured s =>
    (fUnsNext fs idType s t).andThen fun s' => (fUnsValues s' n 1).andThen fun v => .ok (.unstructured s', v)

/-- `ApplyRainfallDataset`, `/repo/driver/main.F90:1189-1232`: nothing happens without cells; the error code of
`RDySetRegionalWaterSource` is not looked at. -/
def fApplyRain (fs : Str → Option (List ℝ)) (idType : Str) (nOwned ndof : ℕ) (regions : List SrcRegion)
    (t : ℝ) (s : FSrc) (data : ℕ → ℝ) : Res (FSrc × (ℕ → ℝ)) :=
  match s with
  | .unset => .ok (.unset, data)
  | s =>
    if nOwned = 0 then .ok (s, data)
    else
      match fRainValues fs idType nOwned t s with
      | .ok (s', v) =>
        match setRegional ndof regions 1 0 v data with
        | .ok d => .ok (s', d)
        | .error => .ok (s', data)
        | .ub => .ub
      | .error => .error
      | .ub => .ub

/-- The boundary values `h, hu, hv` of the `n` edges: `SetHomogeneousBoundary` and `SetUnstructuredData` in
`ApplyBoundaryCondition`, `/repo/driver/main.F90:1353-1416`, `:1435-1447`. Other kinds do not occur
(`fParseBoundary`). -/
def fBoundaryValues (fs : Str → Option (List ℝ)) (idType : Str) (n : ℕ) (t : ℝ) : FSrc → Res (FSrc × List ℝ)
  | .homogeneous d interp =>
    match fGetCurrentData (fun i => d.getD (i - 1) 0) (d.length / 2) t interp with
    | none => .ub
    | some (_, x) => .ok (.homogeneous d interp, (List.replicate n [x, 0, 0]).flatten)
  | .unstructured s =>
    (fUnsNext fs idType s t).andThen fun s' => (fUnsValues s' n 3).andThen fun v => .ok (.unstructured s', v)
  | _ => .error

/-- `ApplyBoundaryCondition`, `/repo/driver/main.F90:1419-1452`: `idx` is the index of the boundary, counted from 0
as it arrives in C (`/repo/src/f90-mod/rdycore.F90:640`). Errors end the program (`PetscCallA`). -/
def fApplyBoundary (fs : Str → Option (List ℝ)) (idType : Str) (p : Phys) (bnds : List BndInfo) (idx : ℤ)
    (edges : ℕ) (t : ℝ) (s : FSrc) (data : ℕ → ℕ → ℝ) : Res (FSrc × (ℕ → ℕ → ℝ)) :=
  match s with
  | .unset => .ok (.unset, data)
  | s =>
    if edges = 0 then .ok (s, data)
    else
      match fBoundaryValues fs idType edges t s with
      | .ok (s', v) =>
        match setFlowDirichlet p bnds idx edges 3 v data with
        | .ok d => .ok (s', d)
        | .error => .error
        | .ub => .ub
      | .error => .error
      | .ub => .ub

/-! ### The run -/

/-- The sources and the boundary values the right-hand side reads, `/repo/include/private/rdyoperatorimpl.h`
(see `/repo/src/operator.c:1018-1033`, `:1394-1411`). -/
abbrev OpData := (ℕ → ℝ) × (ℕ → ℕ → ℝ)

/-- The mesh and the conditions of a process as the setters know them: `RDyGetNumOwnedCells`, the regions, the
boundaries, the physics, and the boundary with the only Dirichlet condition (index from 0, number of edges on the
process), which both programs look for in the same way (`/repo/driver/main.F90:433-471`,
`/repo/src/forcing/rdyforcing.c:18-47`). -/
structure ProcMesh where
  nOwned : ℕ
  regions : List SrcRegion
  phys : Phys
  bnds : List BndInfo
  bcIdx : ℤ
  bcEdges : ℕ

/-- The forcing object of the library, `/repo/src/forcing/rdyforcing.c:602-676`: the kinds of data, and the
functions that give the values (modelled in `Verif/Model/Forcing.lean` and `ForcingData.lean`; parameters here)
with the state `Φ` of the object. -/
structure LibForcing (Φ : Type) where
  rain : DataSel
  boundary : DataSel
  rainVals : Φ → ℝ → Res (Φ × (ℕ → ℝ))
  rainMulti : Φ → ℝ → Res (Φ × List (ℤ × ℝ))
  bndVals : Φ → ℝ → Res (Φ × (ℕ → ℝ))
  bndMulti : Φ → ℝ → (ℕ → ℕ → ℝ) → Res (Φ × (ℕ → ℕ → ℝ))

/-- `RDyApplyForcing`, the part on rainfall, `/repo/src/forcing/rdyforcing.c:692-727`. -/
def LibForcing.applyRain {Φ : Type} (L : LibForcing Φ) (m : ProcMesh) (φ : Φ) (t : ℝ) (data : ℕ → ℝ) :
    Res (Φ × (ℕ → ℝ)) :=
  match L.rain with
  | .unset => .ok (φ, data)
  | .multi _ =>
    (L.rainMulti φ t).andThen fun v => (applyMultiRain m.phys.total m.regions v.2 data).andThen fun d =>
      .ok (v.1, d)
  | _ =>
    if m.nOwned = 0 then .ok (φ, data)
    else
      (L.rainVals φ t).andThen fun v =>
        (RDy.applyRain m.phys.total m.regions ((List.range m.nOwned).map v.2) data).andThen fun d => .ok (v.1, d)

/-- `RDyApplyForcing`, the part on boundaries, `/repo/src/forcing/rdyforcing.c:730-769`. -/
def LibForcing.applyBoundary {Φ : Type} (L : LibForcing Φ) (m : ProcMesh) (φ : Φ) (t : ℝ)
    (data : ℕ → ℕ → ℝ) : Res (Φ × (ℕ → ℕ → ℝ)) :=
  match L.boundary with
  | .unset => .ok (φ, data)
  | .multi _ => L.bndMulti φ t data
  | .homogeneous _ | .unstructured _ _ _ =>
    if m.bcEdges = 0 then .ok (φ, data)
    else
      (L.bndVals φ t).andThen fun v =>
        (setFlowDirichlet m.phys m.bnds m.bcIdx m.bcEdges 3 ((List.range (3 * m.bcEdges)).map v.2) data).andThen
          fun d => .ok (v.1, d)
  | _ => .error

/-- `RDyAdvance` (`/repo/src/rdyadvance.c:345-383`) with a forcing that may fail; the rest is that of
`RunSt.advance`. -/
def advanceRes {U Φ : Type} (P : Physics U OpData Φ) (L : LibForcing Φ) (m : ProcMesh)
    (r : RunSt U OpData Φ) : Res (RunSt U OpData Φ) :=
  (L.applyRain m r.frc r.sim.time r.data.1).andThen fun a =>
    (L.applyBoundary m a.1 r.sim.time r.data.2).andThen fun b =>
      .ok (r.advance { P with force := fun _ _ _ => (b.1, (a.2, b.2)) })

/-- The loop of the C driver, `/repo/driver/main.c:56-89`: `k` calls of `RDyAdvance`. -/
def cLoop {U Φ : Type} (P : Physics U OpData Φ) (L : LibForcing Φ) (m : ProcMesh) :
    ℕ → RunSt U OpData Φ → Res (RunSt U OpData Φ)
  | 0, r => .ok r
  | k + 1, r => (advanceRes P L m r).andThen (cLoop P L m k)

/-- The datasets of the Fortran driver, `/repo/driver/main.F90:1487-1488`. -/
structure FDriver where
  rain : FSrc
  boundary : FSrc

/-- The work of the Fortran driver before a call of `RDyAdvance`, `/repo/driver/main.F90:1543-1546`. -/
def FDriver.apply (fs : Str → Option (List ℝ)) (idType : Str) (m : ProcMesh) (t : ℝ) (d : FDriver)
    (data : OpData) : Res (FDriver × OpData) :=
  (fApplyRain fs idType m.nOwned m.phys.total m.regions t d.rain data.1).andThen fun a =>
    (fApplyBoundary fs idType m.phys m.bnds m.bcIdx m.bcEdges t d.boundary data.2).andThen fun b =>
      .ok (⟨a.1, b.1⟩, (a.2, b.2))

/-- The loop of the Fortran driver, `/repo/driver/main.F90:1541-1575`: the time handed to the datasets is that of
`RDyGetTime` in the unit of the configuration. The checks after the call are those of the C driver and are not
repeated here. -/
def fLoop {U Φ : Type} (P : Physics U OpData Φ) (L : LibForcing Φ) (m : ProcMesh)
    (fs : Str → Option (List ℝ)) (idType : Str) :
    ℕ → FDriver → RunSt U OpData Φ → Res (FDriver × RunSt U OpData Φ)
  | 0, d, r => .ok (d, r)
  | k + 1, d, r =>
    (d.apply fs idType m (fromSeconds r.sim.time r.sim.unit) r.data).andThen fun a =>
      (advanceRes P L m { r with data := a.2 }).andThen fun r' => fLoop P L m fs idType k a.1 r'

end RDy
