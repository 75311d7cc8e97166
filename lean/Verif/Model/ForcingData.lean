import Verif.Model.Forcing

/-!
Model of the contents of raster and unstructured data files, of the mesh files that go with the latter,
and of files with spatial maps (`/repo/src/forcing/rdyforcing_dataset.c`, `rdyforcing_map.c`). A file is
the list of the entries of the vector that it holds. Reading an entry beyond the end is undefined
behaviour (`.ub`).
-/

namespace RDy

noncomputable section

/-- Conversion of a `PetscReal` to a `PetscInt` (`/repo/src/forcing/rdyforcing_dataset.c:137`, `:220`):
truncation. Values that do not fit are not modelled. -/
def toPetscInt (x : ℝ) : ℤ := if 0 ≤ x then ⌊x⌋ else ⌈x⌉

/-! ### Unstructured data -/

/-- `RDyForcingOpenUnstructuredDataset` (`/repo/src/forcing/rdyforcing_dataset.c:215-230`): number of
data points and number of values for each of them. -/
def openUnstructured (file : List ℝ) (expected : ℤ) : Res (ℤ × ℤ) :=
  match file with
  | a :: b :: rest =>
    if toPetscInt b = 0 then .ub
    else if (rest.length : ℤ).tdiv (toPetscInt b) ≠ toPetscInt a then .error
    else if toPetscInt b ≠ expected then .error
    else .ok (toPetscInt a, toPetscInt b)
  | _ => .ub

/-- `RDyForcingReadUnstructuredDatasetCoordinates` (`/repo/src/forcing/rdyforcing_map.c:54-68`): the
number of data points is taken from the mesh file; a negative number makes the allocation fail. -/
def readCoordinates (mesh : List ℝ) : Res (List (ℝ × ℝ)) :=
  match mesh with
  | a :: b :: rest =>
    if toPetscInt a < 0 then .error
    else if toPetscInt b ≠ 2 then .error
    else if rest.length < 2 * (toPetscInt a).toNat then .ub
    else .ok ((List.range (toPetscInt a).toNat).map fun i =>
      (rest.getD (i * 2) 0, rest.getD (i * 2 + 1) 0))
  | _ => .ub

/-- `RDyForcingCreateUnstructuredDatasetMap` (`/repo/src/forcing/rdyforcing_map.c:78-106`). -/
def unstructuredMap (pts elements : List (ℝ × ℝ)) : List ℕ :=
  elements.map fun p => nearestUnstructured p (fun k => pts.getD k (0, 0)) pts.length

/-- `RDyForcingSetUnstructuredData` (`/repo/src/forcing/rdyforcing_dataset.c:357-368`) with the open file:
the values of each mesh element. -/
def setUnstructured (file : List ℝ) (stride : ℕ) (map : List ℕ) : Res (List (List ℝ)) :=
  if ∀ idx ∈ map, idx * stride + stride + 2 ≤ file.length then
    .ok (map.map fun idx => (List.range stride).map (unstructuredValue (fun k => file.getD k 0) stride idx))
  else .ub

/-- Opening an unstructured dataset and its mesh and using it
(`/repo/src/forcing/rdyforcing.c:633-639`, `:661-665`, with `:82-112`, `:120-162`). `later` is the file
that is open when the data are used: the first file, or one opened by
`RDyForcingOpenNextUnstructuredDataset` (`/repo/src/forcing/rdyforcing_dataset.c:255-276`), which does not
look at its header. -/
def useUnstructured (first mesh : List ℝ) (expected : ℤ) (elements : List (ℝ × ℝ)) (later : List ℝ) :
    Res (List (List ℝ)) :=
  match openUnstructured first expected with
  | .ok (_, s) =>
    match readCoordinates mesh with
    | .ok pts => setUnstructured later s.toNat (unstructuredMap pts elements)
    | .error => .error
    | .ub => .ub
  | .error => .error
  | .ub => .ub

/-! ### Rasters -/

/-- `RDyForcingOpenRasterDataset` (`/repo/src/forcing/rdyforcing_dataset.c:132-141`), followed by the
allocation at `/repo/src/forcing/rdyforcing.c:251`, which fails if the size is negative.
Simplification: a negative number of rows together with a negative number of columns also fails. -/
def openRaster (file : List ℝ) : Res Raster :=
  match file with
  | a :: b :: x :: y :: c :: _ =>
    if toPetscInt a < 0 ∨ toPetscInt b < 0 then .error
    else .ok ⟨(toPetscInt a).toNat, (toPetscInt b).toNat, x, y, c⟩
  | _ => .ub

/-- `RDyForcingOpenNextRasterDataset` (`/repo/src/forcing/rdyforcing_dataset.c:178-191`): the header must
be that of the first file. -/
def nextRaster (r : Raster) (file : List ℝ) : Res Unit :=
  match file with
  | a :: b :: x :: y :: c :: _ =>
    if (r.ncols : ℤ) ≠ toPetscInt a then .error
    else if (r.nrows : ℤ) ≠ toPetscInt b then .error
    else if r.xlc ≠ x then .error
    else if r.ylc ≠ y then .error
    else if r.size ≠ c then .error
    else .ok ()
  | _ => .ub

/-- `RDyForcingSetRasterData` (`/repo/src/forcing/rdyforcing_dataset.c:302-310`) with the open file. -/
def setRaster (file : List ℝ) (map : List ℕ) : Res (List ℝ) :=
  if ∀ idx ∈ map, idx + 5 < file.length then
    .ok (map.map (rasterValue fun k => file.getD k 0))
  else .ub

/-- Opening a raster dataset, going on to a later file (`none`: still the first one), and using it
(`/repo/src/forcing/rdyforcing.c:627-632`, `:243-285`, `:707-712`). -/
def useRaster (first : List ℝ) (cells : List (ℝ × ℝ)) (later : Option (List ℝ)) : Res (List ℝ) :=
  match openRaster first with
  | .ok r =>
    match later with
    | none => setRaster first (cells.map fun p => nearestRaster p r)
    | some file =>
      match nextRaster r file with
      | .ok _ => setRaster file (cells.map fun p => nearestRaster p r)
      | .error => .error
      | .ub => .ub
  | .error => .error
  | .ub => .ub

/-! ### Files with spatial maps -/

/-- `RDyForcingWriteMap` (`/repo/src/forcing/rdyforcing_map.c:173-187`) with
`RDyWriteOneDOFGlobalVecToBinaryFile` (`/repo/src/rdydata.c:559-579`): `ranks` are the natural numbers of
the owned cells of the processes, in the order of their owned cells, `maps` the maps of the processes, and
`n` is the number of cells of the mesh. The file holds the entries in natural order (contract of
`DMPlexGlobalToNatural`). -/
def writeMapFile (n : ℕ) (ranks maps : List (List ℕ)) : List ℝ :=
  (List.range n).map fun g => match (ranks.flatten.zip maps.flatten).lookup g with
    | some v => (v : ℝ)
    | none => 0

/-- `RDyForcingReadSpatialMap` (`/repo/src/forcing/rdyforcing_map.c:143-166`) with
`RDyReadOneDOFGlobalVecFromBinaryFile` (`/repo/src/rdydata.c:582-606`): `VecLoad` fails if the file does
not have one entry for each cell; the entries are scattered from natural order to the owned cells and
converted to integers. -/
def readMapFile (n : ℕ) (ranks : List (List ℕ)) (file : List ℝ) : Res (List (List ℤ)) :=
  if file.length ≠ n then .error
  else .ok (ranks.map fun cells => cells.map fun g => toPetscInt (file.getD g 0))

end

end RDy
