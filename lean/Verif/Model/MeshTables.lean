import Mathlib.Data.List.Basic
import Mathlib.Data.Real.Basic
import Mathlib.Algebra.Order.Archimedean.Real.Basic

/-!
# The tables of the mesh: which cell has which edges and vertices, and the numbers of vertices and cells

`src/rdymesh.c` copies the topology of a DMPlex into flat arrays with offsets.  The DMPlex itself is given:
the points of a process are numbers, those of cells, edges and vertices are three ranges, and petsc returns
closures and stars.  Arrays are functions of the index; a write beyond the allocated size is `none`.
Numbers of points are natural numbers, so that no overflow is modelled.
-/

namespace RDy

/-- A DMPlex as seen by one process: the ranges of cells, edges and vertices (`DMPlexGetHeightStratum`,
`DMPlexGetDepthStratum`, `src/rdymesh.c:106-111`) and the transitive closures and stars of points, without the
point itself (the loops begin at `i = 2`: `src/rdymesh.c:143`, `308`, `501`). -/
structure Plex where
  cS : ℕ
  cE : ℕ
  eS : ℕ
  eE : ℕ
  vS : ℕ
  vE : ℕ
  closure : ℕ → List ℕ
  star : ℕ → List ℕ

/-- `IsClosureWithinBounds` (`src/rdymesh.c:12`). -/
def withinBounds (p s e : ℕ) : Bool := decide (s ≤ p) && decide (p < e)

/-- `num_edges`, `edge_ids` and the two arrays of the other kind of points (`num_vertices`, `vertex_ids` of
cells, `num_cells`, `cell_ids` of vertices; `include/private/rdymeshimpl.h:36-60`, `95-120`). -/
structure AdjTab where
  nE : ℕ → ℕ
  eIds : ℕ → ℤ
  nO : ℕ → ℕ
  oIds : ℕ → ℤ

/-- The arrays after their allocation (`RDyCellsCreate`, `src/rdymesh.c:45-65`, `131-132`;
`RDyVerticesCreate`, `src/rdymesh.c:225-246`, `305-306`). The values -1 of `num_vertices` and the maxima of
`src/rdymesh.c:71-76` are replaced by 0 before they are used. -/
def AdjTab.init : AdjTab := ⟨fun _ => 0, fun _ => -1, fun _ => 0, fun _ => -1⟩

/-- The number of rows and the widths of the two arrays: their sizes are `rows * wE` and `rows * wO`, and the
block of row `i` begins at `i * wE` and `i * wO` (`src/rdymesh.c:60-61`, `78-82`; `237-240`, `248-251`). -/
structure TabSize where
  rows : ℕ
  wE : ℕ
  wO : ℕ

/-- One point of the closure of a cell (`src/rdymesh.c:144-155`) or of the star of a vertex
(`src/rdymesh.c:309-320`): an edge goes to one array, any other point to the other. `oS` is the first number
of the other points. -/
def fillPoint (P : Plex) (z : TabSize) (oS i : ℕ) (t : AdjTab) (p : ℕ) : Option AdjTab :=
  if withinBounds p P.eS P.eE then
    if i * z.wE + t.nE i < z.rows * z.wE then
      some { t with eIds := Function.update t.eIds (i * z.wE + t.nE i) ((p : ℤ) - P.eS)
                    nE := Function.update t.nE i (t.nE i + 1) }
    else none
  else
    if i * z.wO + t.nO i < z.rows * z.wO then
      some { t with oIds := Function.update t.oIds (i * z.wO + t.nO i) ((p : ℤ) - oS)
                    nO := Function.update t.nO i (t.nO i + 1) }
    else none

/-- The loop over the points of a closure (`src/rdymesh.c:143-156`, `308-321`). -/
def fillPoints (P : Plex) (z : TabSize) (oS i : ℕ) : AdjTab → List ℕ → Option AdjTab
  | t, [] => some t
  | t, p :: ps => (fillPoint P z oS i t p).bind fun t' => fillPoints P z oS i t' ps

/-- The loop over the cells or the vertices (`src/rdymesh.c:118-158`, `291-324`): rows `0, …, k - 1`. -/
def fillRows (P : Plex) (z : TabSize) (oS : ℕ) (pts : ℕ → List ℕ) : ℕ → Option AdjTab
  | 0 => some AdjTab.init
  | k + 1 => (fillRows P z oS pts k).bind fun t => fillPoints P z oS k t (pts k)

/-- The number of edges, and of other points, in a closure (`src/rdymesh.c:1351-1363`, `1371-1382`). -/
def countPoints (P : Plex) (ps : List ℕ) : ℕ × ℕ :=
  ps.foldl (fun n p => if withinBounds p P.eS P.eE then (n.1 + 1, n.2) else (n.1, n.2 + 1)) (0, 0)

/-- The maxima over the rows of one process (`src/rdymesh.c:1349-1367`, `1369-1386`). -/
def localMax (P : Plex) (pts : ℕ → List ℕ) : ℕ → ℕ × ℕ
  | 0 => (0, 0)
  | k + 1 =>
      (max (localMax P pts k).1 (countPoints P (pts k)).1, max (localMax P pts k).2 (countPoints P (pts k)).2)

/-- The points in the closure of the `i`-th cell (`src/rdymesh.c:142`, `1352`). -/
def Plex.cellPts (P : Plex) (i : ℕ) : List ℕ := P.closure (P.cS + i)

/-- The points in the star of the `i`-th vertex (`src/rdymesh.c:296`, `1373`). -/
def Plex.vertexPts (P : Plex) (i : ℕ) : List ℕ := P.star (P.vS + i)

/-- `DetermineMaxAttributesForCellsAndVertices` (`src/rdymesh.c:1329-1398`): the maxima over all processes,
for cells (edges, vertices) and for vertices (edges, cells). -/
def maxAttributes (Ps : List Plex) : (ℕ × ℕ) × (ℕ × ℕ) :=
  Ps.foldl (fun m P =>
    ((max m.1.1 (localMax P P.cellPts (P.cE - P.cS)).1, max m.1.2 (localMax P P.cellPts (P.cE - P.cS)).2),
      (max m.2.1 (localMax P P.vertexPts (P.vE - P.vS)).1, max m.2.2 (localMax P P.vertexPts (P.vE - P.vS)).2)))
    ((0, 0), (0, 0))

/-- `RDyCellsCreateFromDM`, the edges and vertices of cells, with the maxima of `RDyMeshCreateFromDM`
(`src/rdymesh.c:94-158`, `1410-1414`). -/
def cellTable (Ps : List Plex) (P : Plex) : Option AdjTab :=
  fillRows P ⟨P.cE - P.cS, (maxAttributes Ps).1.1, (maxAttributes Ps).1.2⟩ P.vS P.cellPts (P.cE - P.cS)

/-- `RDyVerticesCreateFromDM`, the edges and cells of vertices (`src/rdymesh.c:265-324`, `1416-1417`). -/
def vertexTable (Ps : List Plex) (P : Plex) : Option AdjTab :=
  fillRows P ⟨P.vE - P.vS, (maxAttributes Ps).2.1, (maxAttributes Ps).2.2⟩ P.cS P.vertexPts (P.vE - P.vS)

/-- The `k`-th entry of a row, as users of the tables read it: `edge_ids[edge_offsets[i] + k]` for
`k < num_edges[i]` (e.g. `src/rdymesh.c:1094-1098`). -/
def readRow (n : ℕ → ℕ) (ids : ℕ → ℤ) (w i : ℕ) : List ℤ := (List.range (n i)).map fun k => ids (i * w + k)

/-! ## Edges -/

/-- One cell of the star of an edge (`src/rdymesh.c:502-507`). -/
def edgeCellStep (P : Plex) (s : ℤ × ℤ) (p : ℕ) : ℤ × ℤ :=
  if s.1 ≠ -1 then (s.1, (p : ℤ) - P.cS) else ((p : ℤ) - P.cS, s.2)

/-- `cell_ids` of the `i`-th edge (`src/rdymesh.c:499-509`). The assertion that there are one or two cells
(line 500) is absent from optimised builds of petsc, and from the model. -/
def edgeCells (P : Plex) (i : ℕ) : ℤ × ℤ := (P.star (P.eS + i)).foldl (edgeCellStep P) (-1, -1)

/-- `vertex_ids` of the `i`-th edge (`src/rdymesh.c:489-497`): the second and third entries of the closure.
The assertion of line 493 is left out as well: reading beyond the closure is `none`. -/
def edgeVertices (P : Plex) (i : ℕ) : Option (ℤ × ℤ) :=
  match P.closure (P.eS + i) with
  | a :: b :: _ => some ((a : ℤ) - P.vS, (b : ℤ) - P.vS)
  | _ => none

/-- The global numbers of edges (`src/rdymesh.c:512-518`; -1 from line 433). -/
def edgeGlobalId (commSize i : ℕ) : ℤ := if commSize = 1 then i else -1

/-! ## Global numbers of vertices -/

/-- The migration star forest of a process: the points it has (`none`: `0, 1, …`), and for each the process
and the number of the point of the mesh before its distribution (`PetscSFGetGraph`, `src/rdymesh.c:350`). -/
structure MigrationSF where
  leaves : Option (List ℕ)
  roots : List (ℕ × ℕ)

/-- `PetscFindInt(v, Nl, local, &v)` where there are leaves (`src/rdymesh.c:358-359`): the position of a point,
`none` if there is none (`PetscCheck(v >= 0, …)`). petsc requires the array to be sorted. -/
def MigrationSF.find (sf : MigrationSF) (v : ℕ) : Option ℕ :=
  match sf.leaves with
  | none => some v
  | some l => if v ∈ l then some (l.idxOf v) else none

/-- The loop of `src/rdymesh.c:356-367`: the variable of the loop is the one that `PetscFindInt` sets. The
result is the array and `min_vertex_idx`, which has no value before the first vertex. `fuel` bounds the
number of iterations; without it the loop need not end. -/
def migrationLoop (sf : MigrationSF) (vS vE : ℕ) : ℕ → ℕ → (ℕ → ℤ) × Option ℕ → Option ((ℕ → ℤ) × Option ℕ)
  | 0, v, s => if v < vE then none else some s
  | fuel + 1, v, s =>
      if v < vE then
        (sf.find v).bind fun v' =>
          match sf.roots[v']? with
          | none => none
          | some r =>
              migrationLoop sf vS vE fuel (v' + 1)
                (Function.update s.1 (v - vS) r.2, if v' = vS then some r.2 else s.2.map fun m => min m r.2)
      else some s

/-- One process: the loop, or an error if the numbers of points and leaves differ
(`src/rdymesh.c:349-352`: the chart of a process begins at 0). -/
def migrationIds (sf : MigrationSF) (chart vS vE : ℕ) : Option ((ℕ → ℤ) × Option ℕ) :=
  if chart = sf.roots.length then migrationLoop sf vS vE (vE - vS) vS (fun _ => -1, none) else none

/-- `MPI_Allreduce(…, MPI_MIN)` of `min_vertex_idx` (`src/rdymesh.c:369`): undefined if a process has not
assigned it. -/
def reduceMin : List (Option ℕ) → Option ℕ
  | [] => none
  | [m] => m
  | m :: ms =>
      match m, reduceMin ms with
      | some a, some b => some (min a b)
      | _, _ => none

/-- The range of points of a process and its star forest, as the numbering of vertices uses them
(`src/rdymesh.c:276-278`, `346-350`). -/
structure VertexProc where
  chart : ℕ
  vS : ℕ
  vE : ℕ
  sf : MigrationSF

/-- `global_ids` on all processes of a run with several processes and no refinement (`src/rdymesh.c:340-375`). -/
def vertexGlobalIds (ps : List VertexProc) : Option (List (ℕ → ℤ)) :=
  match ps.mapM fun p => migrationIds p.sf p.chart p.vS p.vE with
  | none => none
  | some rs =>
      match reduceMin (rs.map Prod.snd) with
      | none => none
      | some m => some (rs.map fun r => fun i => r.1 i - m)

/-- After refinement: `DMPlexGetVertexNumbering` gives the number of a vertex owned by the process, and
`-(number + 1)` for others (`src/rdymesh.c:377-391`). -/
def refinedGlobalId (x : ℤ) : ℤ := if x < 0 then -x - 1 else x

/-! ## The coordinates of the vertices in the output -/

/-- `VecSetValues(xcoord_nat, num_vertices, indices, x, INSERT_VALUES)` of one process
(`src/rdymesh.c:966-981`): `none` if a number is not smaller than the size; negative numbers are ignored by
petsc. `pts` are the numbers and coordinates of its vertices. -/
def insertCoords {α : Type} (size : ℕ) : (ℕ → Option α) → List (ℤ × α) → Option (ℕ → Option α)
  | f, [] => some f
  | f, (g, x) :: ps =>
      if g < (size : ℤ) then
        insertCoords size (if 0 ≤ g then Function.update f g.toNat (some x) else f) ps
      else none

/-- `CreateCoordinatesVectorInNaturalOrder` (`src/rdymesh.c:950-1039`): all processes insert; where several
insert at the same place one of the values remains (here that of the last). Places without a value are 0 in
petsc, `none` here. -/
def coordVector {α : Type} (size : ℕ) (procs : List (List (ℤ × α))) : Option (ℕ → Option α) :=
  procs.foldlM (insertCoords size) fun _ => none

/-! ## Natural numbers of cells -/

/-- The entry at place `k` of the natural vector (`src/rdymesh.c:893-899`) of the process whose part begins
at `start`; `nf` components per cell. -/
noncomputable def naturalEntry (nf start i : ℕ) (rank : ℕ) : ℝ :=
  if i % nf = 0 then ((start + i : ℕ) : ℝ) / nf else -((rank : ℝ) + 1)

/-- `(PetscInt)x` for the entries here (`src/rdymesh.c:926`): the integer part. -/
noncomputable def toInt (x : ℝ) : ℤ := ⌊x⌋

/-- `SaveNaturalCellIDs` with the natural ordering (`src/rdymesh.c:873-935`). `nat` is the place in the file
of the cell at a place of the global ordering, `glob` the place in the global ordering of the `i`-th cell of
the process (`DMPlexNaturalToGlobal`, `DMGlobalToLocal`); `owner` and `start` describe the parts of the
natural vector. All are given by petsc. -/
noncomputable def naturalId (nf : ℕ) (owner start : ℕ → ℕ) (nat glob : ℕ → ℕ) (i : ℕ) : ℤ :=
  toInt (naturalEntry nf (start (nat (glob i) * nf)) (nat (glob i) * nf - start (nat (glob i) * nf))
    (owner (nat (glob i) * nf)))

/-- `SaveNaturalCellIDs` without the natural ordering (`src/rdymesh.c:936-946`, -1 from `src/rdymesh.c:39`). -/
def naturalIdPlain (commSize i : ℕ) : ℤ := if commSize = 1 then i else -1

end RDy
