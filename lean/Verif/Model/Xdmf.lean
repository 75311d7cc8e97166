import Verif.Model.Output
import Verif.Model.OutputFields
import Verif.Model.Mesh
import Mathlib.Data.Int.Log
import Mathlib.Algebra.Order.Round

/-!
Model of the XDMF output of a run as a set of files: the HDF5 files with the fields, the HDF5 file(s) with the
grid, and the XMF files that refer to them (`/repo/src/xdmf_output.c:143-434`, names from
`/repo/src/rdyadvance.c:66-143`); and of the order in which cells are written
(`/repo/src/rdymesh.c:1041-1320`, `/repo/src/xdmf_output.c:38-79`).

HDF5 files are lists of datasets; the numbers in a dataset are represented by what they are (`XItem`).
Simplifications: reading and writing succeed, texts are not truncated, file names are case-sensitive, and the
directory is not a part of the name of an HDF5 group.
-/

namespace RDy

/-! ### Numbers as `%E` prints them -/

/-- Rounding to an integer as `printf` does it (to nearest, ties to even) for the `%E` of
`/repo/src/xdmf_output.c:280`, `:372`. -/
def roundEven (x : ℚ) : ℤ :=
  if Int.fract x = 1 / 2 then (if ⌊x⌋ % 2 = 0 then ⌊x⌋ else ⌊x⌋ + 1) else round x

/-- `%E` (`/repo/src/xdmf_output.c:280`, `:372`) for a non-negative number: the seven digits and the exponent. -/
def sciE (x : ℚ) : ℕ × ℤ :=
  if x ≤ 0 then (0, 0)
  else if roundEven (x / 10 ^ (Int.log 10 x - 6)) = 10 ^ 7 then (10 ^ 6, Int.log 10 x + 1)
  else ((roundEven (x / 10 ^ (Int.log 10 x - 6))).toNat, Int.log 10 x)

/-- The text of a number in that format, `/repo/src/xdmf_output.c:280`, `:372`. -/
def textE (p : ℕ × ℤ) : Str :=
  (padded 1 (p.1 / 10 ^ 6)).map digitChar ++ ['.'] ++ (padded 6 (p.1 % 10 ^ 6)).map digitChar ++ ['E'] ++
    (if p.2 < 0 then ['-'] else ['+']) ++ (padded 2 p.2.natAbs).map digitChar

/-- `%E`, `/repo/src/xdmf_output.c:280`, `:372`. -/
def fmtE (x : ℚ) : Str := textE (sciE x)

/-! ### Files -/

/-- What a dataset holds: a component of a vector at a step (`/repo/src/xdmf_output.c:282-295`), or a vector of the
mesh after so many refinements (`/repo/src/xdmf_output.c:162-172`). -/
inductive XItem
  | field (step : ℕ) (v : OutVec) (comp : ℕ)
  | vertices (level : ℕ)
  | cells (level : ℕ)
  | xc (level : ℕ)
  | yc (level : ℕ)
  | zc (level : ℕ)
  | area (level : ℕ)
  deriving DecidableEq

/-- A dataset in an HDF5 file: its group (`PetscViewerHDF5PushGroup`), its name (`PetscObjectSetName`), its
dimensions and contents. `/repo/src/xdmf_output.c:92-95`, `:162-172`, `:279-296`. -/
structure XSet where
  group : Str
  name : Str
  dims : List ℕ
  item : XItem
  deriving DecidableEq

/-- The contents of an HDF5 file. `/repo/src/xdmf_output.c:268-296`. -/
abbrev H5 := List XSet

/-- `VecView` into an open file (`/repo/src/xdmf_output.c:95`): a dataset of the same name in the group is
overwritten. -/
def H5.put (f : H5) (d : XSet) : H5 :=
  f.filter (fun x => !(decide (x.group = d.group) && decide (x.name = d.name))) ++ [d]

/-- The sizes of the mesh of an output: number of refinements, global numbers of cells and of vertices, length of
the vector of cell connections. `/repo/src/xdmf_output.c:333`, `:375-391`. -/
structure XMesh where
  level : ℕ
  cells : ℕ
  vertices : ℕ
  conns : ℕ

/-- One output: step, time in the unit of the configuration, mesh. `/repo/src/xdmf_output.c:488-494`. -/
structure XOut where
  step : ℕ
  time : ℚ
  mesh : XMesh

/-- What the names and contents of the files depend on. `stamp` is the text of the date so many seconds after the
start date (`/repo/src/rdyadvance.c:82-89`, `:101-104`), `none` without a start date; `amr` is
`is_refinement_on`; `fields` are the requested fields. `/repo/src/xdmf_output.c:254-281`. -/
structure XCfg where
  dir : Str
  pre : Str
  out : OutCfg
  stamp : Option (ℤ → Str)
  unit : Str
  amr : Bool
  tracers : OutTracers
  fields : List Str

/-- A `DataItem` of an XMF file: `file:/group/name` and its dimensions. `/repo/src/xdmf_output.c:128-134`,
`:378-410`. -/
structure XRef where
  file : Str
  group : Str
  name : Str
  dims : List ℕ

/-- An XMF file: the value of `Time`, the number of elements, the data items. `/repo/src/xdmf_output.c:360-432`. -/
structure Xmf where
  time : Str
  elements : ℕ
  refs : List XRef

/-- The files, and `last_refinement_level_outputted`. `/repo/src/xdmf_output.c:254-434`. -/
structure XFs where
  h5 : Str → Option H5
  xmf : Str → Option Xmf
  lastLevel : ℤ

/-- `/repo/src/rdyadvance.c:82-89` `GenerateTimestampedFilename`. -/
def stampedFilename (dir pre stamp suffix : Str) : Str :=
  dir ++ ['/'] ++ pre ++ ['.'] ++ stamp ++ ['.'] ++ suffix

/-- `/repo/src/rdyadvance.c:117-124`, `:134-140`: a name that belongs to one step. -/
def XCfg.perStep (c : XCfg) (o : XOut) (suffix : Str) : Option Str :=
  match c.stamp with
  | some st => some (stampedFilename c.dir c.pre (st (stampSeconds o.time)) suffix)
  | none => indexedFilename c.dir c.pre o.step c.out.stopN suffix

/-- `DetermineOutputFile` for "h5", `/repo/src/rdyadvance.c:116-133`. -/
def XCfg.h5Name (c : XCfg) (o : XOut) : Option Str :=
  if c.out.batchSize = 1 then c.perStep o ['h', '5']
  else (fileIndex c.out o.step).bind fun i => (maxIndex c.out).bind fun m =>
    indexedFilename c.dir c.pre i m ['h', '5']

/-- `DetermineOutputFile` for "xmf", `/repo/src/rdyadvance.c:134-140`. -/
def XCfg.xmfName (c : XCfg) (o : XOut) : Option Str := c.perStep o ['x', 'm', 'f']

/-- `/repo/src/xdmf_output.c:143-157` `DetermineGridFile`. -/
def XCfg.gridName (c : XCfg) (level : ℕ) : Str :=
  if c.amr then
    c.dir ++ ['/'] ++ c.pre ++ ['-', 'g', 'r', 'i', 'd', '.', 'r'] ++ (decimal level).map digitChar ++ ['.', 'h', '5']
  else c.dir ++ ['/'] ++ c.pre ++ ['-', 'g', 'r', 'i', 'd', '.', 'h', '5']

/-- The name of the group of a step in the HDF5 file, `"%d %E %s"`, `/repo/src/xdmf_output.c:279-281`. -/
def XCfg.group (c : XCfg) (o : XOut) : Str :=
  (decimal o.step).map digitChar ++ [' '] ++ fmtE o.time ++ [' '] ++ c.unit

/-- The name of the group of a step in the XMF file, `/repo/src/xdmf_output.c:366-368`. -/
def XCfg.timeGroup (c : XCfg) (o : XOut) : Str :=
  (decimal o.step).map digitChar ++ [' '] ++ fmtE o.time ++ [' '] ++ c.unit

/-- Group of the mesh vectors, `/repo/src/xdmf_output.c:162`. -/
def domainGroup : Str := ['D', 'o', 'm', 'a', 'i', 'n']

/-- Group of the cell attributes of the grid, `/repo/src/xdmf_output.c:167`. -/
def fieldsGroup : Str := ['f', 'i', 'e', 'l', 'd', 's']

/-- `/repo/src/xdmf_output.c:159-175` `WriteGrid`; the names are set at `/repo/src/rdymesh.c:1032`, `:1174`,
`:1309-1312`, the block size of 3 at `/repo/src/rdymesh.c:1009`. -/
def gridSets (m : XMesh) : H5 :=
  [⟨domainGroup, "Vertices".toList, [m.vertices, 3], .vertices m.level⟩,
   ⟨domainGroup, "Cells".toList, [m.conns], .cells m.level⟩,
   ⟨fieldsGroup, "XC".toList, [m.cells], .xc m.level⟩,
   ⟨fieldsGroup, "YC".toList, [m.cells], .yc m.level⟩,
   ⟨fieldsGroup, "ZC".toList, [m.cells], .zc m.level⟩,
   ⟨fieldsGroup, "Area".toList, [m.cells], .area m.level⟩]

/-- `/repo/src/xdmf_output.c:298-307`: whether the grid is written with this output. -/
def XCfg.writesGrid (c : XCfg) (lastLevel : ℤ) (o : XOut) : Bool :=
  if c.amr then decide (lastLevel < (o.mesh.level : ℤ)) else decide (o.step = 0)

/-- The datasets of a step, `/repo/src/xdmf_output.c:280-295`. -/
def XCfg.stepSets (c : XCfg) (o : XOut) : List XSet :=
  (datasets c.tracers c.fields).map fun d => ⟨c.group o, d.1, [o.mesh.cells], .field o.step d.2.1 d.2.2⟩

/-- What a file opened in the given mode holds at first (`/repo/src/xdmf_output.c:263-270`): appending to a file that
does not exist creates it. -/
def openedAs (m : FileMode) (f : Option H5) : H5 :=
  match m with
  | .write => []
  | .append => f.getD []

/-- `/repo/src/xdmf_output.c:254-325` `WriteXDMFHDF5Data`; `none` if it divides by zero or if there is no name. -/
def XCfg.writeHeavy (c : XCfg) (fs : XFs) (o : XOut) : Option XFs :=
  (c.h5Name o).bind fun name => (fileMode c.out o.step).map fun mode =>
    if c.writesGrid fs.lastLevel o then
      { fs with
        h5 := Function.update
          (Function.update fs.h5 name (some ((c.stepSets o).foldl H5.put (openedAs mode (fs.h5 name)))))
          (c.gridName o.mesh.level) (some (gridSets o.mesh))
        lastLevel := if c.amr then (o.mesh.level : ℤ) else fs.lastLevel }
    else
      { fs with
        h5 := Function.update fs.h5 name (some ((c.stepSets o).foldl H5.put (openedAs mode (fs.h5 name)))) }

/-- The part of a name after its last slash, `/repo/src/xdmf_output.c:352-358`. -/
def afterSlash (s : Str) : Str := (s.reverse.takeWhile (· != '/')).reverse

/-- The data items of the XMF file of a step, `/repo/src/xdmf_output.c:377-426`. -/
def XCfg.refs (c : XCfg) (o : XOut) (h5name : Str) : List XRef :=
  [⟨afterSlash (c.gridName o.mesh.level), domainGroup, "Cells".toList, [o.mesh.conns]⟩,
   ⟨afterSlash (c.gridName o.mesh.level), domainGroup, "Vertices".toList, [o.mesh.vertices, 3]⟩,
   ⟨afterSlash (c.gridName o.mesh.level), fieldsGroup, "XC".toList, [o.mesh.cells]⟩,
   ⟨afterSlash (c.gridName o.mesh.level), fieldsGroup, "YC".toList, [o.mesh.cells]⟩,
   ⟨afterSlash (c.gridName o.mesh.level), fieldsGroup, "ZC".toList, [o.mesh.cells]⟩,
   ⟨afterSlash (c.gridName o.mesh.level), fieldsGroup, "Area".toList, [o.mesh.cells]⟩] ++
  (attributes c.tracers c.fields).map fun n => ⟨afterSlash h5name, c.timeGroup o, n, [o.mesh.cells]⟩

/-- `/repo/src/xdmf_output.c:329-434` `WriteXDMFXMFData`; `none` if the HDF5 file cannot be opened (`:347-348`). -/
def XCfg.writeLight (c : XCfg) (fs : XFs) (o : XOut) : Option XFs :=
  (c.h5Name o).bind fun h5name => (c.xmfName o).bind fun name =>
    if (fs.h5 h5name).isSome then
      some { fs with xmf := Function.update fs.xmf name (some ⟨fmtE o.time, o.mesh.cells, c.refs o h5name⟩) }
    else none

/-- One output, `/repo/src/xdmf_output.c:489-494`. -/
def XCfg.write (c : XCfg) (fs : XFs) (o : XOut) : Option XFs := (c.writeHeavy fs o).bind fun fs' => c.writeLight fs' o

/-- The outputs of a run, `/repo/src/xdmf_output.c:436-503`. -/
def XCfg.writeAll (c : XCfg) : XFs → List XOut → Option XFs
  | fs, [] => some fs
  | fs, o :: os => (c.write fs o).bind fun fs' => c.writeAll fs' os

/-! ### The order of the cells -/

/-- `DMPlexGlobalToNatural` (`/repo/src/xdmf_output.c:41-43`, `/repo/src/rdymesh.c:1043-1046`) of a vector with one
block per cell: `ids` are the places of the owned cells of each process in the natural ordering, `vals` their
blocks; places to which nothing is sent are `none`. -/
def toNatural {α : Type} (n : ℕ) (ids : List (List ℕ)) (vals : List (List α)) : List (Option α) :=
  (List.range n).map fun k => (ids.flatten.zip vals.flatten).lookup k

/-- `CopyGlobalVecToNaturalVec`, `/repo/src/rdymesh.c:1041-1050`, and `/repo/src/xdmf_output.c:39-47`: the vector in
the order of the output; without the natural ordering a copy. -/
def outputOrder {α : Type} (natural : Bool) (n : ℕ) (ids : List (List ℕ)) (vals : List (List α)) :
    List (Option α) :=
  if natural then toNatural n ids vals else vals.flatten.map some

/-- Component `j` of a vector as it is written: `VecStrideGatherAll`, `/repo/src/xdmf_output.c:71-95`. Places to which
nothing is sent hold 0. -/
noncomputable def componentData (natural : Bool) (n : ℕ) (ids : List (List ℕ)) (vals : List (List (ℕ → ℝ))) (j : ℕ) :
    List ℝ :=
  (outputOrder natural n ids vals).map fun b => (b.getD fun _ => 0) j

/-- A cell attribute of the grid: `PopulateCellAttributesInANaturalVec`, `/repo/src/rdymesh.c:1238-1275`. -/
noncomputable def attributeData (natural : Bool) (n : ℕ) (ids : List (List ℕ)) (vals : List (List ℝ)) : List ℝ :=
  (outputOrder natural n ids vals).map fun b => b.getD 0

/-- A vector divided among the processes: `PETSC_DECIDE`, so many entries on each (`/repo/src/rdymesh.c:1112-1116`). -/
def splitSizes {α : Type} : List ℕ → List α → List (List α)
  | [], _ => []
  | s :: ss, l => l.take s :: splitSizes ss (l.drop s)

/-- `CreateCellConnectionVector`, `/repo/src/rdymesh.c:1058-1181`: `conns` are the vertices of the owned cells of each
process, `sizes` the numbers of cells of the natural vector on each process. -/
def connData (natural : Bool) (n : ℕ) (ids : List (List ℕ)) (conns : List (List (List ℤ))) (sizes : List ℕ) :
    Option (List ℤ) :=
  ((splitSizes sizes ((outputOrder natural n ids (conns.map fun l => l.map connBlock)).map fun b =>
      b.getD (List.replicate 4 0))).mapM connFlat).map List.flatten

/-- The areas and elevations of the cells, and what of them is kept for the output
(`/repo/include/private/rdymeshimpl.h:142-200`). -/
structure GeoSt where
  area : List ℝ
  zc : List ℝ
  outArea : List ℝ
  outZc : List ℝ

/-- `RDyMeshCreateFromDM`, `/repo/src/rdymesh.c:1401-1437`: the vectors for the output are copies. -/
def geoCreate (area zc : List ℝ) : GeoSt := ⟨area, zc, area, zc⟩

/-- `/repo/src/rdysetup.c:1506-1512`: `RDyMeshOverride2DProjection` (`/repo/src/rdymesh.c:1478-1511`) with hydrostatic
reconstruction, then `OverrideCellElevation` (`/repo/src/rdysetup.c:1081-1099`) with a file of elevations. -/
def geoSetup (hr : Bool) (projected area zc : List ℝ) (file : Option (List ℝ)) : GeoSt :=
  match file with
  | none => if hr then { geoCreate area zc with area := projected } else geoCreate area zc
  | some z =>
    if hr then { geoCreate area zc with area := projected, zc := z } else { geoCreate area zc with zc := z }

end RDy
