import Verif.Model.Data
import Verif.Model.Operator

/-!
Model of the ways in which the edges of a boundary are enumerated: by the getters of the library
(`/repo/src/rdydata.c:408-504`), by the boundary flux operators of both backends
(`/repo/src/swe/swe_petsc.c:541-573`, `/repo/src/operator_fluxes_ceed.c:446-560`) and by the code that
extracts fluxes for the time series (`/repo/src/operator.c:925-960`).

An edge is a local edge number (an entry of `boundary.edge_ids`).
-/

namespace RDy

/-- The mesh data used for boundary edges (`RDyEdges`, `RDyCells`,
`/repo/include/private/rdymeshimpl.h:26-202`): first cell of an edge (`cell_ids[2e]`), ownership of edges and
cells, centroids, natural IDs, lengths and normals. -/
structure BndMesh where
  cellOf : ℕ → ℕ
  edgeOwned : ℕ → Bool
  cellOwned : ℕ → Bool
  edgeCentroid : ℕ → ℕ → ℝ
  cellCentroid : ℕ → ℕ → ℝ
  naturalId : ℕ → ℤ
  len : ℕ → ℝ
  sn : ℕ → ℝ
  cn : ℕ → ℝ

/-- `/repo/src/rdydata.c:24-45` `CheckBoundaryConditionIndex`, `CheckBoundaryNumEdges`; the result is the
list of edges of the boundary. -/
def checkBoundary (bnds : List (List ℕ)) (b : ℤ) (size : ℕ) : Res (List ℕ) :=
  if (bnds.length : ℤ) ≤ b then .error
  else if b < 0 then .error
  else
    match bnds[b.toNat]? with
    | none => .ub
    | some es => if es.length ≠ size then .error else .ok es

/-- `/repo/src/rdydata.c:408-435` `RDyGetIDimCentroidOfBoundaryEdgeOrCell`. -/
def getBoundaryCentroids (m : BndMesh) (bnds : List (List ℕ)) (b : ℤ) (size : ℕ) (forEdge : Bool)
    (idim : ℕ) : Res (List ℝ) :=
  match checkBoundary bnds b size with
  | .ok es => .ok (es.map fun e =>
      if forEdge then m.edgeCentroid e idim else m.cellCentroid (m.cellOf e) idim)
  | .error => .error
  | .ub => .ub

/-- `/repo/src/rdydata.c:488-504` `RDyGetBoundaryCellNaturalIDs`. -/
def getBoundaryNaturalIds (m : BndMesh) (bnds : List (List ℕ)) (b : ℤ) (size : ℕ) : Res (List ℤ) :=
  match checkBoundary bnds b size with
  | .ok es => .ok (es.map fun e => m.naturalId (m.cellOf e))
  | .error => .error
  | .ub => .ub

/-- `/repo/src/swe/swe_petsc.c:541-573`: the edges of a Dirichlet boundary as the PETSc operator sees them.
`data` is the vector of boundary values, with three components. -/
def petscDirichletEdges (m : BndMesh) (es : List ℕ) (data : ℕ → ℝ) : List BEdge :=
  es.zipIdx.map fun p =>
    ⟨m.cellOf p.1, m.len p.1, m.sn p.1, m.cn p.1,
      .dirichlet ⟨data (3 * p.2), data (3 * p.2 + 1), data (3 * p.2 + 2)⟩⟩

/-- `/repo/src/operator_fluxes_ceed.c:482-553`: the elements of the CEED suboperator of a boundary: the
owned edges, each with the position in `edge_ids` from which the Dirichlet values are taken
(`offset_dirichlet`). -/
def ceedElements (m : BndMesh) (es : List ℕ) : List (ℕ × ℕ) :=
  es.zipIdx.filter fun p => m.edgeOwned p.1

/-- `/repo/src/operator_fluxes_ceed.c:482-553`: the edges of a Dirichlet boundary as the CEED operator sees
them, for three components. -/
def ceedDirichletEdges (m : BndMesh) (es : List ℕ) (data : ℕ → ℝ) : List BEdge :=
  (ceedElements m es).map fun p =>
    ⟨m.cellOf p.1, m.len p.1, m.sn p.1, m.cn p.1,
      .dirichlet ⟨data (3 * p.2), data (3 * p.2 + 1), data (3 * p.2 + 2)⟩⟩

/-- The vector `flux_accumulated` of a boundary (`/repo/src/operator_fluxes_ceed.c:499-504`): entry `j`
belongs to element `j`, and the entries after the last element keep the 0 they are created with. `f e` is
the flux accumulated for edge `e`. -/
def ceedFluxVector (m : BndMesh) (es : List ℕ) (f : ℕ → Flux) (j : ℕ) : Flux :=
  ((ceedElements m es).map fun p => f p.1).getD j Flux.zero

/-- `/repo/src/operator.c:925-944` `ExtractCeedOperatorBoundaryFluxes`: entry `e` is taken for the edge at
position `e` of the boundary. -/
def extractCeed (m : BndMesh) (es : List ℕ) (f : ℕ → Flux) : List Flux :=
  (List.range es.length).map fun e => ceedFluxVector m es f e

/-- `/repo/src/swe/swe_petsc.c:613-625` and `/repo/src/operator.c:946-960`
`ExtractPetscOperatorBoundaryFluxes`: the PETSc operator has an entry for every edge of the boundary. -/
def extractPetsc (es : List ℕ) (f : ℕ → Flux) : List Flux :=
  (List.range es.length).map fun i => (es.map f).getD i Flux.zero

/-- `/repo/src/time_series.c:270-295` `RecordBoundaryFluxes`: the mass fluxes recorded for the edges whose
cells are owned, times their lengths. -/
def recordMass (m : BndMesh) (es : List ℕ) (values : List Flux) : List ℝ :=
  (es.zipIdx.filter fun p => m.cellOwned (m.cellOf p.1)).map fun p =>
    m.len p.1 * (values.getD p.2 Flux.zero).m

end RDy
