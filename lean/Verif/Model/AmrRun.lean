import Verif.Model.Amr
import Verif.Model.Data
import Verif.Model.Forcing

/-!
# Refinement in the course of a run

`/repo/src/rdyamr.c`: which cells are refined (`RDyMarkOwnedCellsForAMR`, `AdaptMesh`) and what
`RDyPerformAMR` does with the clock, the Manning coefficients and the sources.  The maps between the
meshes are those of `Verif.Model.Amr`; that `DMAdaptLabel` refines the cells of the label (and those
needed to keep the mesh conforming) is its contract.  `TSSetFromOptions` is represented by the value
of `-ts_dt`.
-/

noncomputable section

namespace RDy

/-! ### The clock -/

/-- Time and step number of the `TS`, its time step, and `rdy->dt`
(`/repo/include/private/rdycoreimpl.h:116-235`). -/
structure RunClock where
  time : ℝ
  step : ℕ
  tsDt : ℝ
  dt : ℝ

/-- `/repo/src/rdysetup.c:1174-1216` `InitSolver`: a new `TS` starts at time 0 and step 0 with step
`rdy->dt`; the option `-ts_dt` replaces its step, which is then stored in `rdy->dt`. -/
def initSolverClock (tsDtOpt : Option ℝ) (dt : ℝ) : RunClock :=
  ⟨0, 0, tsDtOpt.getD dt, tsDtOpt.getD dt⟩

/-- `/repo/src/rdyamr.c:693-707`: the clock is saved, the `TS` made anew and the clock restored
(`rdy->dt` is neither saved nor restored). -/
def refineClock (tsDtOpt : Option ℝ) (c : RunClock) : RunClock :=
  { initSolverClock tsDtOpt c.dt with time := c.time, step := c.step, tsDt := c.tsDt }

/-! ### Which cells are refined -/

/-- `rdy->amr.cells_marked_for_refinement` and `rdy->amr.refine_cell`
(`/repo/include/private/rdycoreimpl.h:75-99`). -/
structure Marks where
  marked : Bool
  cells : List Bool
  deriving DecidableEq

/-- Nothing marked (`PetscNew` zeroes; `/repo/src/rdyamr.c:177-178`). -/
def Marks.none : Marks := ⟨false, []⟩

/-- `/repo/src/rdyamr.c:46-61` `RDyMarkOwnedCellsForAMR`.  The size is looked at by a `PetscAssert`,
which is absent from builds without debugging. -/
def markCells (debug : Bool) (numOwned : ℕ) (refine : List Bool) : Res Marks :=
  if debug ∧ refine.length ≠ numOwned then .error else .ok ⟨true, refine⟩

/-- `/repo/src/rdyamr.c:32`: the box in which cells are refined if none are marked. -/
def inAmrBox (p : ℝ × ℝ) : Prop := (p.1 ≥ 0 ∧ p.1 < 1) ∧ (p.2 ≥ 3 ∧ p.2 ≤ 4)

open Classical in
/-- `/repo/src/rdyamr.c:11-39` (`CreateAdaptLabelInternal`), `:68-90`
(`CreateAdaptLabelFromMarkedCells`), `:173-179`: the local cells that are labelled, and the marks that
are left.  Reading past the end of `refine_cell` is undefined. -/
def adaptLabel (numLocal numOwned : ℕ) (own : ℕ → Bool) (o2l : ℕ → ℕ) (cent : ℕ → ℝ × ℝ)
    (m : Marks) : Res (List ℕ × Marks) :=
  if m.marked then
    if m.cells.length < numOwned then .ub
    else .ok (((List.range numOwned).filter fun c => m.cells.getD c false).map o2l, Marks.none)
  else .ok ((List.range numLocal).filter fun c => own c ∧ inAmrBox (cent c), m)

/-! ### Values -/

/-- A region with its name, ID and cells (`/repo/include/private/rdyregionimpl.h:8-25`). -/
structure FullRegion where
  name : Str
  id : ℤ
  cells : AmrRegion

/-- `/repo/src/rdyamr.c:358-434`: name and ID are kept. -/
def FullRegion.refine (m : FineMap) (o2l : ℤ → ℕ) (fo : ℕ → Bool) (r : FullRegion) : FullRegion :=
  ⟨r.name, r.id, refineRegion m o2l fo r.cells⟩

/-- The region as `InitMaterialProperties` sees it (`/repo/src/rdysetup.c:541-590`). -/
def FullRegion.local (r : FullRegion) : Region := ⟨r.name, r.id, r.cells.localIds⟩

/-- The region as the source setters see it (`/repo/src/rdydata.c:209-301`). -/
def FullRegion.src (r : FullRegion) : SrcRegion := ⟨r.id, r.cells.ownedIds.map Int.toNat⟩

/-- Manning coefficients of the local cells, and the external sources: component `c` of owned cell `o`
at `n * o + c` (`/repo/src/operator.c:90-98`). -/
structure CellData where
  manning : ℕ → ℝ
  sources : ℕ → ℝ

/-- `/repo/src/rdyamr.c:667-675`, `:690-691`, `:712-713`: the operator, which holds the values, is
destroyed and a new one (with zeros) is filled from the configuration, for the refined regions. -/
def refineData (n : ℕ) (regions : List FullRegion) (comp : List Assignment) (mats : List Material)
    (srcs : List (Option ℝ)) (_old : CellData) : Res CellData :=
  match initMaterials (regions.map FullRegion.local) comp mats with
  | none => .error
  | some a =>
    match initSources n (regions.map FullRegion.src) srcs fun _ => 0 with
    | .ok d => .ok ⟨a, d⟩
    | .error => .error
    | .ub => .ub

/-- `/repo/src/forcing/rdyforcing.c:607-623`, `:699-718`: the number of rainfall values is the number of
owned cells when the forcing was created; each `RDyApplyForcing` passes that many, all equal for a
constant or homogeneous dataset. -/
def applyUniformRain (n ndata : ℕ) (regions : List SrcRegion) (v : ℝ) (data : ℕ → ℝ) :
    Res (ℕ → ℝ) :=
  applyRain n regions (List.replicate ndata v) data

/-- `/repo/src/rdydata.c:608-640` and `/repo/src/rdyamr.c:653-655`: `OverrideCellElevation` reads a
global vector from the file of the configuration; `VecLoad` refuses a file with another number of
values than the vector has.  `nCells` is the number of cells of the whole current mesh. -/
def readElevation (nCells : ℕ) (file : List ℝ) : Res (ℕ → ℝ) :=
  if file.length = nCells then .ok fun i => file.getD i 0 else .error

end RDy
