import Verif.Model.Boundaries

/-!
Model of what each process does, when a run starts on several processes, with the part of the mesh that it holds: the number of its regions and boundaries
(`/repo/src/rdysetup.c:201-278`, `:282-503`), the creation of its operator (`/repo/src/operator.c:348-400`, `:80-99`), and the number of components that the
source operators of the PETSc backend without tracers compute (`/repo/src/swe/swe_petsc.c:738-741`, `:851-854`).
-/

namespace RDy

/-- What a process holds: the number of its owned cells, the strata of the label "Cell Sets" on it with their local cells (`/repo/src/rdysetup.c:207-226`; PETSc distributes a label
with those strata only of which a process holds points), the edges of the label "boundary_edges" (`:286-291`) with the mesh, and the strata of "Face Sets" (`:348-360`). Simplified:
a stratum that the label names has an index set. -/
structure Part where
  owned : ℕ
  cellSets : List (List ℕ)
  mesh : EdgeMesh
  boundaryEdges : List ℕ
  faceSets : List FaceSet

/-- `/repo/src/rdysetup.c:342-443`: `rdy->num_boundaries`, that is one for each face set, if any edge of the process is on the domain boundary (or looks like it, at the rim of its ghost
cells), and one for the edges in none of them. -/
def Part.numBoundaries (p : Part) : ℕ :=
  if p.boundaryEdges = [] then 0
  else p.faceSets.length + if (assignLoop p.mesh p.boundaryEdges p.faceSets).2 = [] then 0 else 1

/-- `/repo/src/rdysetup.c:497-500`: whether the largest number of boundaries of a process (`MPI_MAX`) is positive. -/
def boundariesFound (ps : List Part) : Bool := decide (0 < (ps.map Part.numBoundaries).foldl max 0)

/-- What the operator of a process has after its creation: the lengths of `external_sources` and `material_properties` (`/repo/src/operator.c:93-96`), and the number of its
boundaries (`:374-379`). -/
structure PartOp where
  srcLen : ℕ
  matLen : ℕ
  boundaries : ℕ

/-- `/repo/src/operator.c:365-383` `CreateOperator` and `:80-96` `SetOperatorRegions` on one process of a run with `comps` components: without regions it is refused, without boundaries
not. -/
def Part.createOp (comps : ℕ) (p : Part) : Res PartOp :=
  if p.cellSets.length > 0 then .ok ⟨comps * p.owned, p.owned, p.numBoundaries⟩ else .error

/-- `/repo/src/swe/swe_petsc.c:738-741` (and `:851-854`): `n_dof = size / mesh->num_owned_cells`, undefined for a process without owned cells, and the check that it is 3. -/
def sourceDof (size owned : ℕ) : Res ℕ := if owned = 0 then .ub else if size / owned = 3 then .ok (size / owned) else .error

/-- A process up to its first evaluation of the right-hand side (PETSc backend, 3 components): creation of the operator (`/repo/src/operator.c:348-400`), then the source operator
(`/repo/src/swe/swe_petsc.c:704-741`). -/
def Part.start (p : Part) : Res ℕ :=
  match p.createOp 3 with
  | .ok o => sourceDof o.srcLen p.owned
  | .error => .error
  | .ub => .ub

/-- whether an outcome is undefined (as the division at `/repo/src/swe/swe_petsc.c:740` may be) -/
def Res.isUndefined {α : Type} : Res α → Bool
  | .ub => true
  | _ => false

/-- whether an outcome is an error (of `PetscCheck`, as at `/repo/src/operator.c:366-367`) -/
def Res.isRefused {α : Type} : Res α → Bool
  | .error => true
  | _ => false

/-- All processes: undefined if one is, refused if one is (`/repo/src/rdysetup.c:1516-1549`). Simplified: all of them get as far as this. -/
def startParts (ps : List Part) : Res Unit :=
  if boundariesFound ps = false then .error
  else if ps.any (fun p => p.start.isUndefined) then .ub
  else if ps.any (fun p => p.start.isRefused) then .error
  else .ok ()

end RDy
