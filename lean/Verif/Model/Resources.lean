import Mathlib.Logic.Function.Basic
import Mathlib.Data.Finset.Basic

/-!
# The objects held by a simulation context: creation, hand-over and release

The functions that create, replace and release the PETSc objects, CEED objects, allocated arrays and math
expression parsers behind an `RDy` object.  A program is a list of commands on *slots* (the pointer members
and local variables of the C functions); objects are numbered in the order of their creation.  What the
objects contain is not modelled.

Simplifications, here and in each definition below:
* an array of objects created in a loop and released in a loop over the same number of entries (the
  `owned_cell_ids` of the regions, the boundary vectors of the PETSc operator, …) is one object;
* an array allocated with a size is an object even where the size may be 0 (`PetscCalloc1(0, …)` gives
  `NULL`, which no function releases);
* a process is assumed to have cells, regions and boundaries (`mesh.num_cells`, `num_regions` and
  `num_boundaries` positive); see `observations` for the differences between processes.
-/

namespace RDy

/-! ## Objects, references, commands -/

/-- The pointers and objects of a process: `ptr x` is the object that slot `x` points to (`none` for
`NULL`), `owned` the references that the program has to give up (one per creation), `holds j` the objects
to which object `j` keeps references of its own (PETSc and libCEED count references: the vectors made by a
`DM` keep the `DM`, a `TS` keeps its `DM`).  `next` is the number of the next object. The reference counts
themselves (petsc `PetscObjectReference`) are not in /repo; the slots are the members of `struct _p_RDy`,
`include/private/rdycoreimpl.h:116-235`. -/
structure Heap (σ : Type) where
  ptr : σ → Option ℕ
  owned : List ℕ
  holds : ℕ → List ℕ
  next : ℕ

/-- Before `RDyCreate` (`src/rdycore.c:158-175`): nothing exists. `PetscNew` fills the new object with
zeros, hence every pointer is `NULL`. -/
def Heap.empty {σ : Type} : Heap σ := ⟨fun _ => none, [], fun _ => [], 0⟩

/-- An object exists as long as the program owns a reference to it, or an existing object does (the rule
by which petsc and libCEED release objects; e.g. `src/rdycore.c:258-263`, where the solver and the vectors
are destroyed before the operator and `dm`). -/
inductive Heap.Alive {σ : Type} (s : Heap σ) : ℕ → Prop
  | owned {i : ℕ} : i ∈ s.owned → s.Alive i
  | held {i j : ℕ} : s.Alive j → i ∈ s.holds j → s.Alive i

/-- What the functions of this file do with pointers. `create x`: `x` is set to a new object
(`VecDuplicate(…, &x)`, `PetscCalloc1(n, &x)`, `DMClone(…, &x)`, `mupCreate`), whatever it pointed to
before. `destroy x`: `XxxDestroy(&x)`, `PetscFree(x)`: nothing happens if `x` is `NULL`; otherwise the
reference is given up and `x` is `NULL`. `copy x y`: `y = x`. `move x y`: `y = x` where `y` takes over the
reference, and `x` is `NULL` or not used any more. `borrow x y h`: `y = x`, and the object of `h` keeps a
reference to the object of `x`. `clear x`: `x = NULL`. `use x`: the object of `x` is accessed
(`src/rdyamr.c:482-716`, `src/rdycore.c:158-301`). -/
inductive Cmd (σ : Type)
  | create (x : σ)
  | destroy (x : σ)
  | copy (x y : σ)
  | move (x y : σ)
  | borrow (x y h : σ)
  | clear (x : σ)
  | use (x : σ)

section
variable {σ : Type} [DecidableEq σ]

open Classical in
/-- One command (`src/rdycore.c:158-301`, `src/rdyamr.c:482-716`; see `Cmd`). Undefined behaviour (`none`):
releasing a reference that was released before, accessing an object that does not exist any more, and
accessing `NULL`. -/
noncomputable def Heap.exec (s : Heap σ) : Cmd σ → Option (Heap σ)
  | .create x => some { s with ptr := Function.update s.ptr x (some s.next), owned := s.next :: s.owned, next := s.next + 1 }
  | .destroy x =>
      match s.ptr x with
      | none => some s
      | some i =>
          if i ∈ s.owned then some { s with ptr := Function.update s.ptr x none, owned := s.owned.erase i }
          else none
  | .copy x y => some { s with ptr := Function.update s.ptr y (s.ptr x) }
  | .move x y => some { s with ptr := Function.update (Function.update s.ptr y (s.ptr x)) x none }
  | .borrow x y h =>
      match s.ptr x, s.ptr h with
      | some i, some j =>
          some { s with ptr := Function.update s.ptr y (some i), holds := Function.update s.holds j (i :: s.holds j) }
      | _, _ => none
  | .clear x => some { s with ptr := Function.update s.ptr x none }
  | .use x =>
      match s.ptr x with
      | none => none
      | some i => if s.Alive i then some s else none

/-- A list of commands (the statements of the functions below, e.g. `src/rdycore.c:238-301`, in order). -/
noncomputable def Heap.run (s : Heap σ) : List (Cmd σ) → Option (Heap σ)
  | [] => some s
  | c :: p =>
      match s.exec c with
      | none => none
      | some s' => s'.run p

end

/-! ## The context, its meshes, vectors and matrices -/

/-- The members of the simulation context (`include/private/rdycoreimpl.h:116-235`) and the local variables
of `RDyPerformAMR` (`src/rdyamr.c:482-488`) that hold objects. `operator` stands for the operator with all
it contains (see `OpSlot`), `opDm` for its member `dm`, `forcing` for the forcing with all it contains
(see `ForcingSlot`), `config` for the parsers that `DestroyConfig` releases and `mmsParsers` for the others
(see `configure`), `maps` for the five index arrays of a refinement. -/
inductive Slot
  | self | comm | config | mmsParsers | log
  | dm | dm1dof | flowDm | tracerDm
  | uGlobal | rhs | uLocal | vec1dof | solnAccum | flowGlobal | flowLocal | tracerGlobal | tracerLocal
  | mesh | regions | initialConditions | sources | boundaries | boundaryConditions
  | operator | opDm | ts | forcing
  | dmBase | dm1dofBase | baseToCurrentN | currentToBaseN | baseToCurrent1 | currentToBase1
  | dmFine | coarseToFineN | fineToCoarseN | coarseToFine1 | fineToCoarse1 | uCoarse | uFine | maps | refinedRegions
  | refineCell
  deriving DecidableEq

/-- What decides which objects are made: an ensemble (`src/ensemble.c:5-16`), a log file other than the
terminal (`src/rdysetup.c:1384-1389`), sediment classes (`physics.sediment.num_classes > 0`,
`src/rdydm.c:236-292`), salinity (`src/yaml_input.c:1330`). -/
structure ResCfg where
  ensemble : Bool
  logFile : Bool
  sediment : Bool
  salinity : Bool
  deriving DecidableEq

open Cmd Slot

/-- `RDyCreate` (`src/rdycore.c:158-175`): the context and a duplicate of the communicator. -/
def create_ : List (Cmd Slot) := [create self, create comm]

/-- `ReadConfigFile` and the ensemble (`src/ensemble.c:5-16`: the duplicate is freed and replaced by a part
of the global communicator). `ParseMathExpressions` (`src/yaml_input.c:1319-1377`) makes the parsers of the
materials and conditions (`config`), and, *whether or not the run has a manufactured solution*, those of the
sediment and salinity of one (`mmsParsers`), which `DestroyConfig` (`src/yaml_input.c:1864-1897`) releases
only if there are expressions for them (`DestroyManufacturedSolutions`, `src/yaml_input.c:1844-1861`).
Runs with manufactured solutions are left out. -/
def configure (c : ResCfg) : List (Cmd Slot) :=
  [create config] ++ (if c.sediment || c.salinity then [create mmsParsers] else []) ++
    (if c.ensemble then [destroy comm, create comm] else [])

/-- `CreateVectors` (`src/rdydm.c:254-292`). Without sediment the vectors of the flow are those of the
solution. -/
def createVectors (c : ResCfg) : List (Cmd Slot) :=
  [use dm, create uGlobal, create rhs, create uLocal, use dm1dof, create vec1dof, create solnAccum] ++
    (if c.sediment then [use flowDm, create flowGlobal, create flowLocal, use tracerDm, create tracerGlobal, create tracerLocal]
      else [copy uGlobal flowGlobal, copy uLocal flowLocal])

/-- `RDyDestroyVectors` (`src/rdycore.c:191-204`). -/
def destroyVectors : List (Cmd Slot) :=
  [destroy rhs, destroy uGlobal, destroy uLocal, destroy vec1dof, destroy solnAccum]

/-- `InitOperator` (`src/rdysetup.c:1102-1112`, `CreateOperator`, `src/operator.c:348-417`): the operator
stores the pointer `dm` without a reference of its own (`src/operator.c:31`), but its vectors have one
(`DMCreateGlobalVector(op->dm, …)`, `src/operator.c:229`, `270`, `271`, `308`, `309`). -/
def initOperator : List (Cmd Slot) :=
  [use dm, use mesh, use regions, use boundaries, use boundaryConditions, create operator, borrow dm opDm operator]

/-- `DestroyOperator` (`src/operator.c:421-493`): it begins with the communicator of `op->dm`. -/
def destroyOperator : List (Cmd Slot) := [use opDm, destroy operator]

/-- `RDySetup` (`src/rdysetup.c:1373-1575`), the steps that make objects: the log, the DMs (`CreateDM`,
`CreateAuxiliaryDMs`, `CreateTracerDM` and `CreateFlowDM`, `src/rdydm.c:82-251`), the vectors, the regions
and the boundaries (`src/rdysetup.c:201-400`), the mesh, the conditions, the operator, the solver and the
forcing. The pointers to the DMs of the base level are copies (lines 1491-1492). Temporary objects of the
functions called are left out. -/
def setup (c : ResCfg) : List (Cmd Slot) :=
  (if c.logFile then [create log] else []) ++
    [create dm, create dm1dof, copy dm dmBase, copy dm1dof dm1dofBase] ++
    (if c.sediment then [create flowDm, create tracerDm] else [copy dm flowDm]) ++
    createVectors c ++
    [create regions, create mesh, create initialConditions, create sources, create boundaries,
      create boundaryConditions] ++
    initOperator ++ [use dm, create ts, create forcing]

/-- `RDyMarkOwnedCellsForAMR` (`src/rdyamr.c:46-61`): the marks are copied to a new array, whatever
`refine_cell` pointed to. -/
def mark : List (Cmd Slot) := [create refineCell]

/-- `MatMultResuse` for the matrix that is replaced (`src/rdyamr.c:451-467`): the product is computed,
`x` is destroyed and replaced by a copy. The product itself, destroyed at the end, is left out. -/
def matMultReuse (a x : Slot) : List (Cmd Slot) := [use a, use x, destroy x, create x]

/-- `RDyPerformAMR` (`src/rdyamr.c:482-716`); `first`: `num_refinements` is 0; `marked`:
`cells_marked_for_refinement`. `AdaptMesh` (`src/rdyamr.c:161-212`) makes the refined DM and the four
matrices and frees the marks. In the products of lines 617-620 `MatMultResuse` replaces `B` in the first and
third and `A` in the second and fourth. `rdy->flow_dm = rdy->dm` (line 625) overwrites the pointer to the DM
of the flow. -/
def refine (c : ResCfg) (first marked : Bool) : List (Cmd Slot) :=
  (if marked then [use refineCell, destroy refineCell] else []) ++
    [use dm, create dmFine, create coarseToFineN, create fineToCoarseN, create coarseToFine1, create fineToCoarse1,
      use uLocal, create uCoarse, use dmFine, create uFine, create maps, use coarseToFineN, use uCoarse, use uFine,
      use regions, create refinedRegions, destroy maps, use dm, use uGlobal] ++
    destroyVectors ++
    (if first then
        [move dm dmBase, move dm1dof dm1dofBase, create baseToCurrentN, create currentToBaseN, create baseToCurrent1,
          create currentToBase1]
      else
        [destroy dm, destroy dm1dof] ++ matMultReuse coarseToFineN baseToCurrentN ++
          matMultReuse fineToCoarseN currentToBaseN ++ matMultReuse coarseToFine1 baseToCurrent1 ++
          matMultReuse fineToCoarse1 currentToBase1) ++
    [move dmFine dm, copy dm flowDm, use dm, create dm1dof] ++
    createVectors c ++
    [destroy regions, move refinedRegions regions, destroy mesh, use dm, create mesh, use coarseToFineN, use uCoarse,
      use uLocal, use uGlobal, destroy coarseToFineN, destroy fineToCoarseN, destroy coarseToFine1,
      destroy fineToCoarse1, destroy uCoarse, destroy uFine] ++
    destroyOperator ++ [destroy boundaries, create boundaries] ++ initOperator ++
    [use ts, destroy ts, use dm, create ts, use boundaryConditions, use sources, use regions]

/-- `RDyDestroy` (`src/rdycore.c:238-301`); `isSetup`: `RDySetup` has been called; `refined`:
`num_refinements` is not 0. The viewers and time series are in `RunSlot`. -/
def destroy_ (isSetup refined : Bool) : List (Cmd Slot) :=
  [destroy mesh, destroy initialConditions, destroy sources, destroy boundaryConditions, destroy regions,
    destroy boundaries, destroy ts] ++ destroyVectors ++
    (if isSetup then destroyOperator else []) ++
    [destroy forcing, destroy dm1dof, destroy dm] ++
    (if refined then
        [destroy dmBase, destroy dm1dofBase, destroy baseToCurrentN, destroy currentToBaseN, destroy baseToCurrent1,
          destroy currentToBase1]
      else []) ++
    [destroy config, destroy log, destroy comm, destroy self]

/-- What a program does with a context between its creation and its destruction: `RDyMarkOwnedCellsForAMR`
(`src/rdyamr.c:46-61`), `RDyPerformAMR` (`src/rdyamr.c:482-716`), and the two functions for data on the mesh
of the base level, `RDyReadAMRScalarGlobalVecLevel0FromBinary` and
`RDyMapAMRScalarGlobalVecLevel0ToCurrentLevel` (`src/rdydata.c:627-680`). Other calls that change no pointer
(`RDyAdvance` apart from `RunSlot`, the getters and setters) are left out. -/
inductive ResOp
  | mark
  | refine
  | readBase
  | mapBase
  deriving DecidableEq

/-- `RDyReadAMRScalarGlobalVecLevel0FromBinary` (`src/rdydata.c:627-649`): vectors of the DM of the base
level. -/
def readBase : List (Cmd Slot) := [use dm1dofBase]

/-- `RDyMapAMRScalarGlobalVecLevel0ToCurrentLevel` (`src/rdydata.c:653-680`): the matrix from the base level
to the current one is applied, which exists only after a refinement (`src/rdyamr.c:607-610`). -/
def mapBase : List (Cmd Slot) := [use dm1dofBase, use dm1dof, use baseToCurrent1]

/-- The commands of such calls; `first`: no refinement so far; `marked`:
`cells_marked_for_refinement` (`src/rdyamr.c:49`, `173-179`, `603`, `645`). -/
def ops (c : ResCfg) : Bool → Bool → List ResOp → List (Cmd Slot)
  | _, _, [] => []
  | first, _, .mark :: os => mark ++ ops c first true os
  | first, marked, .refine :: os => refine c first marked ++ ops c false false os
  | first, marked, .readBase :: os => readBase ++ ops c first marked os
  | first, marked, .mapBase :: os => mapBase ++ ops c first marked os

/-- A whole run: `RDyCreate`, `RDySetup`, some calls and `RDyDestroy` (the main programs:
`driver/main.c:28-96`, `driver/amr.c:170-234`). -/
def lifetime (c : ResCfg) (os : List ResOp) : List (Cmd Slot) :=
  create_ ++ configure c ++ setup c ++ ops c true false os ++ destroy_ true (decide (ResOp.refine ∈ os))

/-! ## The operator -/

/-- The members of the operator that hold objects (`include/private/rdyoperatorimpl.h:129-199`). -/
inductive OpSlot
  | op | uLocal | rhs | sources | etaVertices | etaOperator | flux | source | musclFlux | qReconstructed
  | gradH | gradHu | gradHv | lsCoeffs | ceedFluxDiv | ceedPrim | ceedPrimAccum | ceedSrc | ceedSrcAccum
  | restriction
  | boundaryValues | boundaryFluxes | boundaryFluxesAccum | externalSources | materials | petscFlux | petscSource
  | fluxDiv | prim | primAccum | src | srcAccum
  deriving DecidableEq

/-- `physics.flow.well_balancing` (`include/private/rdyconfigimpl.h:58-62`). -/
inductive Balancing
  | none | bs2002 | hr
  deriving DecidableEq

/-- `CreateOperator` (`src/operator.c:348-417`, with `SetOperatorDomain`, `SetOperatorBoundaries`,
`SetOperatorRegions`, `CreateOperatorSubOperators`, `AddOperatorFluxDivergence`,
`AddOperatorPrimitiveVariables`, `AddOperatorSourceVariables`, `src/operator.c:24-335`) for the backend, the
kind of well balancing and the order. `none`: the combination is refused (lines 381-382). The CEED operators
are single objects, the restrictions made and released in one function are `restriction`. -/
def createOp (ceed : Bool) (wb : Balancing) (second : Bool) : Option (List (Cmd OpSlot)) :=
  if second = true ∧ wb = .hr then none
  else some
    ([create .op] ++
      (if ceed then [create .uLocal, create .rhs, create .sources]
        else [create .boundaryValues, create .boundaryFluxes, create .boundaryFluxesAccum, create .externalSources,
          create .materials]) ++
      (if ceed then
          (match wb with
            | .none => [create .etaVertices]
            | .bs2002 => [create .etaVertices, create .etaOperator]
            | .hr => []) ++
          (if second then
              [create .qReconstructed, create .musclFlux, create .flux, create .gradH, create .gradHu, create .gradHv,
                create .lsCoeffs]
            else [create .flux]) ++
          [create .source]
        else [create .petscFlux, create .petscSource]) ++
      [create .fluxDiv] ++ (if ceed then [create .restriction, create .ceedFluxDiv, use .source, destroy .restriction]
        else [use .petscSource]) ++
      [create .prim, create .primAccum] ++
      (if ceed then
          [create .restriction, create .ceedPrim, create .ceedPrimAccum, use .source, destroy .restriction]
        else [use .petscSource]) ++
      [create .src, create .srcAccum] ++
      (if ceed then [create .restriction, create .ceedSrc, create .ceedSrcAccum, use .source, destroy .restriction]
        else []))

/-- `DestroyOperator` (`src/operator.c:421-493`). -/
def destroyOp (ceed second : Bool) : List (Cmd OpSlot) :=
  (if ceed then
      [destroy .flux, destroy .source, destroy .uLocal, destroy .rhs, destroy .sources, destroy .etaVertices,
        destroy .ceedFluxDiv] ++
      (if second then
          [destroy .musclFlux, destroy .qReconstructed, destroy .gradH, destroy .gradHu, destroy .gradHv,
            destroy .lsCoeffs]
        else []) ++
      [destroy .ceedPrim, destroy .ceedPrimAccum, destroy .ceedSrc, destroy .ceedSrcAccum]
    else
      [destroy .boundaryValues, destroy .boundaryFluxes, destroy .boundaryFluxesAccum, destroy .externalSources,
        destroy .materials, destroy .petscFlux, destroy .petscSource]) ++
  [destroy .fluxDiv, destroy .prim, destroy .primAccum, destroy .src, destroy .srcAccum, destroy .op]

/-! ## Viewers and time series -/

/-- The members of the context for output (`include/private/rdycoreimpl.h:223-229`, `output_viewer`,
`output_vf`, and `time_series_data`, `include/private/rdycoreimpl.h:32-73`). `fluxes` stands for the four
arrays of the boundary fluxes, `sites` for the three arrays of coordinates. -/
inductive RunSlot
  | viewer | vf | fluxes | accumU | sitesU | scatterU | sites
  deriving DecidableEq

/-- What decides which of them are made: output is enabled with the format XDMF or binary (`viewers`,
`src/rdyadvance.c:181-217`), time series of boundary fluxes and of observations are asked for
(`src/time_series.c:256-261`), and the process is the first (`src/time_series.c:184`). -/
structure RunCfg where
  viewers : Bool
  fluxes : Bool
  observations : Bool
  rank0 : Bool
  deriving DecidableEq

/-- `CreateOutputViewer` (`src/rdyadvance.c:177-236`). -/
def openViewer (c : RunCfg) : List (Cmd RunSlot) :=
  if c.viewers then [destroy .viewer, create .viewer, use .viewer, destroy .vf, create .vf] else []

/-- `InitTimeSeries` (`src/time_series.c:253-266`): the whole structure is overwritten by zeros, then the
arrays of the fluxes (`src/time_series.c:65-117`) and the objects of the observations
(`src/time_series.c:165-250`) are made; temporary objects are left out. -/
def openSeries (c : RunCfg) : List (Cmd RunSlot) :=
  [clear .fluxes, clear .accumU, clear .sitesU, clear .scatterU, clear .sites] ++
    (if c.fluxes then [create .fluxes] else []) ++
    (if c.observations then [create .accumU, create .sitesU, create .scatterU] ++
        (if c.rank0 then [create .sites] else [])
      else [])

/-- `DestroyOutputViewer` (`src/rdyadvance.c:153-158`). -/
def destroyViewer : List (Cmd RunSlot) := [destroy .vf, destroy .viewer]

/-- One call in a run: `RDyAdvance` (`src/rdyadvance.c:261-383`), which ends at or after the final time or
not (`fin`, line 378), or `RDyPerformAMR` (`src/rdyamr.c:482-716`). -/
inductive RunCall
  | advance (fin : Bool)
  | refine
  deriving DecidableEq

/-- `RDyAdvance` and `RDyPerformAMR` as far as they touch the viewers and series; `started`: the step
number is not 0 (every `RDyAdvance` is taken to make at least one step); `refined`: `mesh_was_refined`
(`src/rdyadvance.c:264-292`, `375-381`, `src/rdyamr.c:644`). Restarted runs make the viewers in the same way
(`src/rdyadvance.c:279-284`) but no time series; they are left out. -/
def runOps (c : RunCfg) : Bool → Bool → List RunCall → List (Cmd RunSlot)
  | _, _, [] => []
  | started, refined, .advance fin :: os =>
      (if started then [] else openViewer c ++ openSeries c) ++
        (if refined then openViewer c else []) ++
        (if fin then destroyViewer else []) ++ runOps c true false os
  | started, _, .refine :: os => runOps c started true os

/-- `RDyDestroy` as far as it touches them (`DestroyTimeSeries`, `src/time_series.c:567-583`): the arrays of
the fluxes, and the objects of the observations *if there are coordinates of sites* (`has`), which only the
first process has. No function called by `RDyDestroy` touches the viewers. -/
def destroySeries (c : RunCfg) (started : Bool) : List (Cmd RunSlot) :=
  [destroy .fluxes] ++
    (if started && c.observations && c.rank0 then [use .sites, destroy .sites, destroy .sitesU, destroy .scatterU] else [])

/-- Whether a list of calls contains an `RDyAdvance` (`src/rdyadvance.c:264-277`: the first one makes the
viewers and series). -/
def advances (os : List RunCall) : Bool := os.any fun o => match o with | .advance _ => true | .refine => false

/-- The viewers and series in a whole run (`driver/main.c:28-96`). -/
def runLifetime (c : RunCfg) (os : List RunCall) : List (Cmd RunSlot) :=
  runOps c false false os ++ destroySeries c (advances os)

/-! ## The forcing -/

/-- The members of the forcing that hold objects (`include/private/rdyforcingimpl.h:19-135`): the context,
the values for the sources, the vector read from the file, the coordinates of the cells and of the data, the
map; `multiVecs`, `multiData`, `regionIds` for several files. The members with `bc` are those of the boundary
conditions, `bcMulti` the arrays for the Dirichlet boundaries. -/
inductive ForcingSlot
  | forcing | values | vec | meshXc | meshYc | dataXc | dataYc | map | multiVecs | multiData | regionIds
  | bcValues | bcVec | bcMeshXc | bcMeshYc | bcDataXc | bcDataYc | bcMap | bcMultiVecs | bcMultiData | bcRegionIds
  | bcMulti
  | tmp
  deriving DecidableEq

/-- The kinds of rainfall dataset (`include/private/rdyforcingimpl.h:10-17`); `raster` and `unstructured`
with the map read from a file or not (`read_map`). -/
inductive RainKind
  | unset | constant | homogeneous | raster (readMap : Bool) | unstructured (readMap : Bool) | multi
  deriving DecidableEq

/-- The kinds of boundary dataset (`src/forcing/rdyforcing.c:645-668`: constant and raster boundary data are
refused). `edges`: this process has edges of the Dirichlet boundary (`src/forcing/rdyforcing.c:133-142`). -/
inductive BoundaryKind
  | unset | homogeneous | unstructured (edges : Bool) | multi
  deriving DecidableEq

/-- The rainfall part of `RDyCreateForcing` (`src/forcing/rdyforcing.c:603-641`) with the functions that open
and map the datasets: `RDyForcingOpenData` (`src/forcing/rdyforcing_dataset.c:9-24`),
`DoPostprocessForSourceRasterDataset` (`src/forcing/rdyforcing.c:243-284`: the map is allocated at line 264
and, if it is read from a file, once more at `src/forcing/rdyforcing_map.c:146`),
`DoPostprocessForSourceUnstructuredDataset` (`src/forcing/rdyforcing.c:83-111`), and, for several files, the
allocation at `src/forcing/rdyforcing.c:456-457`. -/
def openRain : RainKind → List (Cmd ForcingSlot)
  | .unset => []
  | .constant => [create .values]
  | .homogeneous => [create .values, create .vec]
  | .raster readMap =>
      [create .values, create .vec, use .vec, create .dataXc, create .dataYc, create .map, create .meshXc, create .meshYc] ++
        (if readMap then [create .map, create .tmp, use .tmp, use .map, destroy .tmp]
          else [use .meshXc, use .meshYc, use .dataXc, use .dataYc, use .map])
  | .unstructured readMap =>
      [create .values, create .vec, use .vec, create .meshXc, create .meshYc, create .tmp, use .tmp, create .dataXc,
        create .dataYc, destroy .tmp] ++
        (if readMap then [create .map, create .tmp, use .tmp, use .map, destroy .tmp]
          else [create .map, use .meshXc, use .meshYc, use .dataXc, use .dataYc, use .map])
  | .multi => [create .multiData, create .regionIds, use .multiData, create .multiVecs]

/-- The next hourly file (`RDyForcingOpenNextRasterDataset`, `RDyForcingOpenNextUnstructuredDataset`,
`src/forcing/rdyforcing_dataset.c:166-200`, `255-290`). -/
def nextRain : RainKind → List (Cmd ForcingSlot)
  | .raster _ => [destroy .vec, create .vec, use .vec]
  | .unstructured _ => [destroy .vec, create .vec, use .vec]
  | _ => []

/-- The boundary part of `RDyCreateForcing` (`src/forcing/rdyforcing.c:643-669`, with lines 49-80, 118-163
and 170-235). -/
def openBoundary : BoundaryKind → List (Cmd ForcingSlot)
  | .unset => []
  | .homogeneous => [create .bcVec, create .bcValues]
  | .unstructured edges =>
      [create .bcVec, use .bcVec] ++
        (if edges then
            [create .bcValues, create .bcMeshXc, create .bcMeshYc, create .tmp, use .tmp, create .bcDataXc, create .bcDataYc,
              destroy .tmp, create .bcMap, use .bcMeshXc, use .bcMeshYc, use .bcDataXc, use .bcDataYc, use .bcMap]
          else [])
  | .multi =>
      [create .bcMultiData, create .bcRegionIds, use .bcMultiData, create .bcMultiVecs, create .tmp, use .tmp, use .bcRegionIds,
        create .bcMulti, destroy .tmp]

/-- The next hourly file of boundary data (`src/forcing/rdyforcing_dataset.c:255-290`). -/
def nextBoundary : BoundaryKind → List (Cmd ForcingSlot)
  | .unstructured _ => [destroy .bcVec, create .bcVec, use .bcVec]
  | _ => []

/-- `RDyDestroyForcing` (`src/forcing/rdyforcing.c:775-850`, with the functions at
`src/forcing/rdyforcing_dataset.c:84-91`, `150-163`, `237-252`). The values of the boundaries are freed where
`ndata` is not 0 (line 809). -/
def destroyForcing (r : RainKind) (b : BoundaryKind) : List (Cmd ForcingSlot) :=
  (match r with
    | .unset => []
    | .constant => [destroy .values]
    | .homogeneous => [destroy .values, destroy .vec]
    | .raster _ =>
        [destroy .values, destroy .vec, destroy .meshXc, destroy .meshYc, destroy .dataXc, destroy .dataYc, destroy .map]
    | .unstructured _ =>
        [destroy .values, destroy .vec, destroy .dataXc, destroy .dataYc, destroy .meshXc, destroy .meshYc, destroy .map]
    | .multi => [use .multiData, destroy .multiVecs, destroy .multiData, destroy .regionIds]) ++
  (match b with
    | .unset => []
    | .homogeneous => [destroy .bcValues, destroy .bcVec]
    | .unstructured edges =>
        [destroy .bcValues, destroy .bcVec, destroy .bcDataXc, destroy .bcDataYc] ++
          (if edges then [destroy .bcMeshXc, destroy .bcMeshYc, destroy .bcMap] else [])
    | .multi =>
        [use .bcMultiData, destroy .bcMultiVecs, destroy .bcMultiData, destroy .bcRegionIds, destroy .bcMulti]) ++
  [destroy .forcing]

/-- The forcing in a run in which the hourly files are changed `n` times for the rainfall and `m` times for
the boundaries (`src/forcing/rdyforcing.c:603-850`). -/
def forcingLifetime (r : RainKind) (b : BoundaryKind) (n m : ℕ) : List (Cmd ForcingSlot) :=
  [create .forcing] ++ openRain r ++ openBoundary b ++ (List.replicate n (nextRain r)).flatten ++
    (List.replicate m (nextBoundary b)).flatten ++ destroyForcing r b

end RDy
