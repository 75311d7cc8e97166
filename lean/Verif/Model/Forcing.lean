import Mathlib.Data.Real.Basic
import Mathlib.Analysis.Real.Sqrt
import Verif.Model.Data

/-!
# Forcing datasets: time series, hourly files, spatial maps

`/repo/src/forcing/rdyforcing_dataset.c`, `rdyforcing_map.c` and `rdyforcing.c`.  A loaded `Vec` is the
function `d : ℕ → ℝ` of its entries.  Files, viewers, command-line parsing and memory management are
not modelled.
-/

noncomputable section

namespace RDy

/-- `/repo/src/forcing/rdyforcing_dataset.c:41-53`: the loop over the intervals of a dataset stored as
`time, value, time, value, …`; it stops at the first `itime` with `time_dn ≤ t < time_up`. -/
def bracketIdx (d : ℕ → ℝ) (n : ℕ) (t : ℝ) : Option ℕ :=
  (List.range (n - 1)).find? fun i => decide (d (i * 2) ≤ t ∧ t < d (i * 2 + 2))

/-- `/repo/src/forcing/rdyforcing_dataset.c:32-67`, `RDyForcingGetCurrentData`: index and value of the
current sample.  With `ndata = 0` the code reads `data_ptr[-1]`, which is outside of the array
(`none`). -/
def getCurrentData (d : ℕ → ℝ) (n : ℕ) (t : ℝ) (interp : Bool) : Option (ℕ × ℝ) :=
  if n = 0 then none
  else
    match bracketIdx d n t with
    | none => some (n - 1, d (n * 2 - 1))
    | some i =>
      if interp then
        some (i, (t - d (i * 2)) / (d (i * 2 + 2) - d (i * 2)) * (d (i * 2 + 3) - d (i * 2 + 1)) +
          d (i * 2 + 1))
      else some (i, d (i * 2 + 1))

/-- `/repo/include/private/rdyforcingimpl.h:25-31`, `RDyHomogeneousDataset`: the loaded data, the flag and
the index of the previous sample (`-1` after opening, `/repo/src/forcing/rdyforcing_dataset.c:76-77`).
`cur_idx` is only passed through and is not kept. -/
structure Homog where
  d : ℕ → ℝ
  n : ℕ
  interp : Bool
  prev : ℤ

/-- `/repo/src/forcing/rdyforcing_dataset.c:71-80`, `RDyForcingOpenHomogeneousDataset`, on the entries of
the file; `ndata = size / 2` (`:18-20`).  `interp` is what the structure holds already. -/
def openHomog (file : List ℝ) (interp : Bool) : Homog :=
  ⟨fun i => file.getD i 0, file.length / 2, interp, -1⟩

/-- `/repo/src/forcing/rdyforcing_dataset.c:321-344`, `RDyForcingSetHomogeneousData`, for one cell of the
array `values` (all entries are treated alike); the entry is an `Option` as the caller of
`rdyforcing.c:722-723` passes an uninitialised variable (`none`). -/
def setHomog (s : Homog) (t : ℝ) (v : Option ℝ) : Option (Homog × Option ℝ) :=
  match getCurrentData s.d s.n t s.interp with
  | none => none
  | some (i, x) =>
    if s.interp ∨ (i : ℤ) ≠ s.prev then some ({ s with prev := i }, some x) else some (s, v)

/-- `/repo/src/forcing/rdyforcing_dataset.c:380-406`, `RDyForcingSetHomogeneousBoundary`, for one edge of
the array: the three values `h, hu, hv`. -/
def setHomogBoundary (s : Homog) (t : ℝ) (v : ℝ × ℝ × ℝ) : Option (Homog × (ℝ × ℝ × ℝ)) :=
  match getCurrentData s.d s.n t s.interp with
  | none => none
  | some (i, x) =>
    if s.interp ∨ (i : ℤ) ≠ s.prev then some ({ s with prev := i }, (x, 0, 0)) else some (s, v)

/-- `/repo/src/forcing/rdyforcing.c:701-705`: rainfall of type HOMOGENEOUS over a sequence of calls of
`RDyApplyForcing`; the array is kept in the forcing object and starts at zero (`PetscCalloc1`,
`:624`).  The list of values passed to RDycore. -/
def rainHistory : Homog → Option ℝ → List ℝ → Option (List (Option ℝ))
  | _, _, [] => some []
  | s, v, t :: ts =>
    match setHomog s t v with
    | none => none
    | some (s', v') => (rainHistory s' v' ts).map fun r => v' :: r

/-- `/repo/src/forcing/rdyforcing.c:719-725`: rainfall of type MULTI_HOMOGENEOUS for one dataset; the value
is a local variable declared without initialisation in the loop body, so each call starts from
`none` again. -/
def multiRainHistory : Homog → List ℝ → Option (List (Option ℝ))
  | _, [] => some []
  | s, t :: ts =>
    match setHomog s t none with
    | none => none
    | some (s', v') => (multiRainHistory s' ts).map fun r => v' :: r

/-- `/repo/src/forcing/rdyforcing.c:736-743` and `:754-766`: boundary values of type HOMOGENEOUS or
MULTI_HOMOGENEOUS over a sequence of calls; the array belongs to the forcing object. -/
def boundaryHistory : Homog → ℝ × ℝ × ℝ → List ℝ → Option (List (ℝ × ℝ × ℝ))
  | _, _, [] => some []
  | s, v, t :: ts =>
    match setHomogBoundary s t v with
    | none => none
    | some (s', v') => (boundaryHistory s' v' ts).map fun r => v' :: r

/-- `/repo/src/forcing/rdyforcing.c:448-463` and `:569-584`: the datasets of a MULTI_HOMOGENEOUS forcing
are allocated with `PetscMalloc1`; only their file names are set, so the flag
`temporally_interpolate` is whatever the memory holds (`mem`).  The option
(`-temporally_interpolate_spatially_homogeneous_rain`, `-temporally_interpolate_bc`; `opt`) is only
stored in the structure of the single dataset (`:308-309`, `:484-492`). -/
def openMulti (file : List ℝ) (_opt mem : Bool) : Homog := openHomog file mem

/-! ### Hourly files -/

/-- `/repo/src/forcing/rdyforcing_dataset.c:295-300` and `:350-355`: at most one further file is opened per
call; `k` is `ndata_file`, the number of files opened so far (1 after opening, `:126-127`,
`:206-207`); the open file is number `k - 1` counted from the start date. -/
def nextFile (k : ℕ) (t : ℝ) : ℕ := if t / 3600 ≥ (k : ℝ) * 1 then k + 1 else k

/-- The files (numbered in hours from the start date) used by a sequence of calls of
`RDyForcingSetRasterData` / `RDyForcingSetUnstructuredData`, `/repo/src/forcing/rdyforcing_dataset.c:295-373`. -/
def fileHistory : ℕ → List ℝ → List ℕ
  | _, [] => []
  | k, t :: ts => (nextFile k t - 1) :: fileHistory (nextFile k t) ts

/-- `/repo/src/forcing/rdyforcing_dataset.c:302-310`: value of a mesh cell from the open raster file (five
header entries, mm/h to m/s). -/
def rasterValue (file : ℕ → ℝ) (idx : ℕ) : ℝ := file (idx + 5) * (1 / (1000 * 3600))

/-- `/repo/src/forcing/rdyforcing_dataset.c:357-368`: entry `ii` of a mesh element from the open
unstructured file (two header entries, no conversion of units). -/
def unstructuredValue (file : ℕ → ℝ) (stride idx ii : ℕ) : ℝ := file (idx * stride + ii + 2)

/-! ### Spatial maps -/

/-- `/repo/src/forcing/rdyforcing_map.c:89-91`: distance of a mesh point and a data point
(`PetscPowReal(_, 0.5)` is the square root). -/
def dist2D (p q : ℝ × ℝ) : ℝ := Real.sqrt ((p.1 - q.1) * (p.1 - q.1) + (p.2 - q.2) * (p.2 - q.2))

/-- `/repo/src/forcing/rdyforcing_map.c:93-101`: one step of the search; the state is `(min_dist, index)`,
`none` before the first point. -/
def nearestStep (p : ℝ × ℝ) (pts : ℕ → ℝ × ℝ) (s : Option (ℝ × ℕ)) (kk : ℕ) : Option (ℝ × ℕ) :=
  match s with
  | none => some (dist2D p (pts kk), kk)
  | some (m, i) => if dist2D p (pts kk) < m then some (dist2D p (pts kk), kk) else some (m, i)

/-- `/repo/src/forcing/rdyforcing_map.c:78-106`, `RDyForcingCreateUnstructuredDatasetMap`, for one mesh
element; without data points the entry keeps the 0 of `PetscCalloc1`. -/
def nearestUnstructured (p : ℝ × ℝ) (pts : ℕ → ℝ × ℝ) (n : ℕ) : ℕ :=
  match (List.range n).foldl (nearestStep p pts) none with
  | none => 0
  | some (_, i) => i

/-- The header of a raster file, `/repo/src/forcing/rdyforcing_dataset.c:137-141`. -/
structure Raster where
  ncols : ℕ
  nrows : ℕ
  xlc : ℝ
  ylc : ℝ
  size : ℝ

/-- `/repo/src/forcing/rdyforcing.c:254-261`: centre of raster cell `idx = irow * ncols + icol`; row 0 is
the northernmost. -/
def rasterCentre (r : Raster) (idx : ℕ) : ℝ × ℝ :=
  (r.xlc + ((idx % r.ncols : ℕ) : ℝ) * r.size + r.size / 2,
   r.ylc + ((r.nrows : ℝ) - 1 - ((idx / r.ncols : ℕ) : ℝ)) * r.size + r.size / 2)

/-- `/repo/src/forcing/rdyforcing_map.c:125-129`: one step of the raster search. -/
def rasterStep (p : ℝ × ℝ) (r : Raster) (s : ℝ × ℕ) (idx : ℕ) : ℝ × ℕ :=
  if dist2D p (rasterCentre r idx) < s.1 then (dist2D p (rasterCentre r idx), idx) else s

/-- `/repo/src/forcing/rdyforcing_map.c:111-136`, `RDyForcingCreateRasterDatasetMapping`, for one mesh cell:
the two nested loops visit `idx = 0, 1, …, nrows * ncols - 1`; the entry starts as the 0 of
`PetscCalloc1` (`rdyforcing.c:264`). -/
def nearestRaster (p : ℝ × ℝ) (r : Raster) : ℕ :=
  ((List.range (r.nrows * r.ncols)).foldl (rasterStep p r)
    ((((max r.ncols r.nrows : ℕ) : ℝ) + 1) * r.size, 0)).2

/-! ### Application -/

/-- `/repo/src/forcing/rdyforcing.c:695-718`: rainfall given per owned cell is handed to
`RDySetRegionalWaterSource` with the literal region ID 1 and all owned cells of the process; skipped
if the process owns no cells.  `n` is the number of degrees of freedom, the water source is
component 0. -/
def applyRain (n : ℕ) (regions : List SrcRegion) (values : List ℝ) (data : ℕ → ℝ) :
    Res (ℕ → ℝ) :=
  if values.length = 0 then .ok data else setRegional n regions 1 0 values data

/-- `/repo/src/forcing/rdyforcing.c:719-726`: rainfall per region (values already looked up); the dataset
for region ID `rid` is passed with `rid - 1` to `RDySetHomogeneousRegionalWaterSource`. -/
def applyMultiRain (n : ℕ) (regions : List SrcRegion) : List (ℤ × ℝ) → (ℕ → ℝ) → Res (ℕ → ℝ)
  | [], data => .ok data
  | (rid, v) :: rest, data =>
    match setHomogeneous n regions (rid - 1) 0 v data with
    | .ok d => applyMultiRain n regions rest d
    | .error => .error
    | .ub => .ub

/-- `/repo/src/forcing/rdyforcing.c:170-235`, `DoPostprocessForBoundaryMultiHomogeneousDataset`: for every
Dirichlet boundary (index `i`, ID) the first dataset whose region ID equals the boundary's; `none` is
the error of the `PetscCheck` (`:222`). -/
def matchDatasets (regionIds : List ℤ) : List (ℕ × ℤ) → Option (List (ℕ × ℕ))
  | [] => some []
  | (i, bid) :: rest =>
    match regionIds.findIdx? (fun r => decide (bid = r)) with
    | none => none
    | some j => (matchDatasets regionIds rest).map fun l => (i, j) :: l

/-- `/repo/src/forcing/rdyforcing.c:18-47`, `FindDirichletBCID`, for one process: index of the last
Dirichlet boundary (`-1` if there is none), and whether there is more than one. -/
def findDirichlet (isDirichlet : List Bool) : ℤ × Bool :=
  isDirichlet.zipIdx.foldl
    (fun s b => if b.1 then ((b.2 : ℤ), if s.1 ≠ -1 then true else s.2) else s) (-1, false)

end RDy
