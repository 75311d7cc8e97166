import Mathlib.Data.Real.Basic
import Mathlib.Algebra.BigOperators.Group.Finset.Basic
import Mathlib.Logic.Function.Basic
import Mathlib.Algebra.Order.Floor.Semiring
import Mathlib.Algebra.Order.Archimedean.Real.Basic
import Verif.Model.Fields

/-!
# Adaptive mesh refinement: cell maps, regions, solution transfer

`/repo/src/rdyamr.c`.  What `DMPlexTransform` does is represented by the function that lists, for every
local cell of the coarse mesh, the local cells of the fine mesh it is split into.
-/

noncomputable section

namespace RDy

/-- A refinement of a process's local mesh: `nC` coarse cells, `nF` fine cells, and the fine cells of
each coarse cell, in the order in which `DMPlexTransformGetTargetPoint` gives them
(`/repo/src/rdyamr.c:120-126`).  All full-dimensional pieces of a cell are taken to be of one type. -/
structure Refine where
  nC : ℕ
  nF : ℕ
  children : ℕ → List ℕ

/-- A sparse matrix as the function of its entries, with `MatSetValue(…, INSERT_VALUES)`
(`/repo/src/rdyamr.c:101-104`, `:128-133`). -/
abbrev AMat := ℕ → ℕ → ℝ

/-- `/repo/src/rdyamr.c:128` (and `:132` with `bs = 1`): `CoarseToFineMat`, `val = 1` at row
`bs * pNew + i`, column `bs * c + i`. -/
def coarseToFine (r : Refine) (bs : ℕ) : AMat := fun row col =>
  if row % bs = col % bs ∧ col / bs < r.nC ∧ row / bs ∈ r.children (col / bs) then 1 else 0

/-- `/repo/src/rdyamr.c:129` (and `:133` with `bs = 1`): `FineToCoarseMat`, `1 / rsize[n]` at row
`bs * c + i`, column `bs * pNew + i`. -/
def fineToCoarse (r : Refine) (bs : ℕ) : AMat := fun row col =>
  if row % bs = col % bs ∧ row / bs < r.nC ∧ col / bs ∈ r.children (row / bs) then
    1 / ((r.children (row / bs)).length : ℝ)
  else 0

/-- `MatMult` with a matrix of `m` columns (`/repo/src/rdyamr.c:265`, `:658`; `/repo/src/rdydata.c:665`). -/
def matVec (A : AMat) (m : ℕ) (x : ℕ → ℝ) : ℕ → ℝ := fun i => ∑ j ∈ Finset.range m, A i j * x j

/-- `/repo/src/rdyamr.c:451-467`, `MatMultResuse`: the product of `A` (with `m` columns) and `B`. -/
def matMul (A : AMat) (m : ℕ) (B : AMat) : AMat := fun i k => ∑ j ∈ Finset.range m, A i j * B j k

/-- The matrices kept in `rdy->amr` and the numbers of cells of the base and current mesh
(`/repo/src/rdyamr.c:603-621`, `/repo/include/private/rdycoreimpl.h`). -/
structure AmrState where
  nBase : ℕ
  nCur : ℕ
  baseToCurrent : AMat
  currentToBase : AMat
  refined : Bool

/-- State before the first refinement (no matrices yet; `/repo/src/rdyamr.c:604`). -/
def AmrState.init (n : ℕ) : AmrState := ⟨n, n, fun _ _ => 0, fun _ _ => 0, false⟩

/-- `/repo/src/rdyamr.c:603-621`: the update of the matrices in `RDyPerformAMR` for block size `bs`. -/
def AmrState.refine (s : AmrState) (bs : ℕ) (r : Refine) : AmrState :=
  if s.refined then
    { s with
      nCur := r.nF
      baseToCurrent := matMul (coarseToFine r bs) (bs * r.nC) s.baseToCurrent
      currentToBase := matMul s.currentToBase (bs * r.nC) (fineToCoarse r bs) }
  else
    { s with
      nCur := r.nF
      baseToCurrent := coarseToFine r bs
      currentToBase := fineToCoarse r bs
      refined := true }

/-- `/repo/src/rdyamr.c:596-597`, `:657-659`: the solution on the refined mesh (local part; the global
vector then gets the owned entries). -/
def transferSolution (r : Refine) (ndof : ℕ) (u : ℕ → ℝ) : ℕ → ℝ :=
  matVec (coarseToFine r ndof) (ndof * r.nC) u

/-- `/repo/src/rdyamr.c:250-265`, `:281`: the parent of a fine cell, found by prolongating the vector whose
first component is the cell number (and `-1` in the other components) and truncating to an
integer. -/
def parentOf (r : Refine) (ndof : ℕ) (f : ℕ) : ℕ :=
  ⌊transferSolution r ndof (fun k => if k % ndof = 0 then ((k / ndof : ℕ) : ℝ) else -1) (f * ndof)⌋₊

/-- `/repo/src/rdyamr.c:279-286`: numbers of fine cells per coarse cell (`PetscCalloc1` zeroes). -/
def countFine (par : ℕ → ℕ) (nF : ℕ) : ℕ → ℕ :=
  (List.range nF).foldl (fun num c => Function.update num (par c) (num (par c) + 1)) fun _ => 0

/-- `/repo/src/rdyamr.c:292-297`: offsets, while the counts are reset; `none` without coarse cells, where
`coarseOffsetFine[0]` and `coarseNumFine[-1]` are outside of the arrays. -/
def fineOffsets (nC : ℕ) (num : ℕ → ℕ) : Option ((ℕ → ℕ) × (ℕ → ℕ)) :=
  if nC = 0 then none
  else
    let s := (List.range' 1 (nC - 1)).foldl
      (fun (s : (ℕ → ℕ) × (ℕ → ℕ)) c =>
        (Function.update s.1 c (s.1 (c - 1) + s.2 (c - 1)), Function.update s.2 (c - 1) 0))
      (fun _ => 0, num)
    some (s.1, Function.update s.2 (nC - 1) 0)

/-- `/repo/src/rdyamr.c:301-312`: filling `coarseToFineMap`; the state is the map and `coarseNumFine`. -/
def fillFine (par off : ℕ → ℕ) (nF : ℕ) (num : ℕ → ℕ) : (ℕ → ℕ) × (ℕ → ℕ) :=
  (List.range nF).foldl
    (fun (s : (ℕ → ℕ) × (ℕ → ℕ)) c =>
      (Function.update s.1 (off (par c) + s.2 (par c)) c,
       Function.update s.2 (par c) (s.2 (par c) + 1)))
    (fun _ => 0, num)

/-- The result of `DetermineCoarseToFineCellMapping`, `/repo/src/rdyamr.c:225-321`: `coarseToFineMap`,
`coarseNumFine`, `coarseOffsetFine`. -/
structure FineMap where
  map : ℕ → ℕ
  num : ℕ → ℕ
  off : ℕ → ℕ

/-- `/repo/src/rdyamr.c:225-321`, `DetermineCoarseToFineCellMapping`, for the parent function `par`. -/
def coarseToFineMapping (par : ℕ → ℕ) (nC nF : ℕ) : Option FineMap :=
  match fineOffsets nC (countFine par nF) with
  | none => none
  | some s => some ⟨(fillFine par s.1 nF s.2).1, (fillFine par s.1 nF s.2).2, s.1⟩

/-- `/repo/src/rdyamr.c:394-398`, `:424-427`: the fine cells of one coarse cell, read off the map. -/
def FineMap.cellsOf (m : FineMap) (c : ℕ) : List ℕ :=
  (List.range (m.num c)).map fun j => m.map (m.off c + j)

/-- `/repo/src/rdyamr.c:345-356`: numbering of the owned fine cells (`-1` for the others). -/
def fineOwnedId (isOwned : ℕ → Bool) (f : ℕ) : ℤ :=
  if isOwned f then (((List.range f).filter fun g => isOwned g).length : ℤ) else -1

/-- Cells of a region: local IDs and the IDs of the owned cells (`/repo/include/private/rdyregionimpl.h:8-25`,
`RDyRegion`). -/
structure AmrRegion where
  localIds : List ℕ
  ownedIds : List ℤ

/-- `/repo/src/rdyamr.c:358-434`: one refined region.  `ownedToLocal` belongs to the coarse mesh. -/
def refineRegion (m : FineMap) (ownedToLocal : ℤ → ℕ) (fineIsOwned : ℕ → Bool) (reg : AmrRegion) :
    AmrRegion :=
  if reg.ownedIds.length > 0 then
    ⟨reg.localIds.flatMap m.cellsOf,
     (reg.ownedIds.flatMap fun g => m.cellsOf (ownedToLocal g)).map (fineOwnedId fineIsOwned)⟩
  else ⟨[], []⟩

end RDy
