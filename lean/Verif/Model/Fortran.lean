import Verif.Model.Output
import Verif.Model.Lifecycle
import Mathlib.Data.Real.Basic

/-!
# The Fortran interface

`/repo/src/f90-mod/rdycore.F90` gives the functions of the C library to Fortran programs.  Each procedure of
the module is a wrapper: it makes arguments for C out of its dummy arguments and calls the C function through
an interface declared with `bind(c)`.  Nothing checks that these declarations agree with the C prototypes: the
compilers see only one side each.

The model describes a call from end to end: what the wrapper passes (`Actual`), how the `bind(c)` interface
turns it into a word or an address (`Passing`), and what the C function takes these words for (`CPar`).  The
three tables (`CFun.params`, `FProc.dummies`, `FProc.call`) are read off the sources line by line.

Simplifications: addresses are numbers; an address in a Fortran variable of type `c_ptr` and a PETSc vector
in a `type(tVec)` are words of the size of an address; `PetscReal` is `double` (`c_double`), as everywhere in RDycore;
a `PetscInt` has 32 or 64 bits (`wide`), an `int` 32.  The status that the C functions return is passed on
unchanged as `ierr` and is not modelled.  The call in `RDyInit` is made under a condition, for which see
`Proc.initFromFortran`.
-/

namespace RDy

/-- The types of the words that C functions take or point to: `RDy`, `Vec`, `PetscInt`, `int` (also the
enumeration `RDyTimeUnit` and `MPI_Fint`), `PetscReal`, `PetscBool`, `char`
(`/repo/include/rdycore.h:13-141`). -/
inductive CKind
  | obj | vec | pint | cint | real | bool | char
  deriving DecidableEq, Repr

/-- The parameters in the C prototypes: a word, an address of such a word or of an array of such words, or a
text ending with a NUL (`/repo/include/rdycore.h:16-130`). -/
inductive CPar
  | val (k : CKind)
  | ptr (k : CKind)
  | str
  deriving DecidableEq, Repr

/-- The types in the `bind(c)` interfaces: `type(c_ptr)`, `PetscFortranAddr`, `PetscInt`, `integer(c_int)`,
`real(c_double)`, `PetscBool` (`/repo/src/f90-mod/rdycore.F90:52-463`). -/
inductive FKind
  | addr | vec | pint | cint | real | bool
  deriving DecidableEq, Repr

/-- A `bind(c)` argument with the attribute `value` is passed by value, any other one by its address
(`/repo/src/f90-mod/rdycore.F90:52-463`). -/
inductive Passing
  | value | ref
  deriving DecidableEq, Repr

/-- The dummy arguments of the procedures: a `type(RDy)`, a `type(tVec)`, a `PetscInt`, the number of a
boundary (a `PetscInt` called `boundary_…`), an `integer` (also `integer(RDyTimeUnit)`), a
`real(RDyDouble)`, a `PetscBool`, an array, a `character(len=1024)`
(`/repo/src/f90-mod/rdycore.F90:467-1008`). -/
inductive Dummy
  | obj | vec | pint | index | cint | real | bool | arr (k : CKind) | text
  deriving DecidableEq, Repr

/-- What a wrapper passes for an argument, by the position of the dummy argument: its component `%c_rdy` or
`%v`, the argument itself, the argument minus one, its address (`c_loc`), the address of a C text with its
contents (`/repo/src/f90-mod/rdycore.F90:467-1008`). -/
inductive Actual
  | handle (i : ℕ) | arg (i : ℕ) | pred (i : ℕ) | loc (i : ℕ) | text (i : ℕ)
  deriving DecidableEq, Repr

/-- The functions of the C library that the Fortran module refers to
(`/repo/include/rdycore.h:16-141`, `/repo/src/rdycore.c:56-62`, `:176-182`). -/
inductive CFun
  | getVersion
  | getBuildConfigurationF90
  | initFortran
  | initialized
  | finalize
  | createF90
  | setLogFile
  | setup
  | mmsSetup
  | mmsComputeSolution
  | mmsEnforceBoundaryConditions
  | mmsComputeSourceTerms
  | mmsUpdateMaterialProperties
  | mmsComputeErrorNorms
  | mmsEstimateConvergenceRates
  | mmsRun
  | getNumGlobalCells
  | getNumOwnedCells
  | getNumBoundaryConditions
  | getNumBoundaryEdges
  | setFlowDirichletBoundaryValues
  | getBoundaryConditionFlowType
  | getTimeUnit
  | getTime
  | getTimeStep
  | convertTime
  | getStep
  | getCouplingInterval
  | setCouplingInterval
  | getOwnedCellHeights
  | getOwnedCellXMomenta
  | getOwnedCellYMomenta
  | getOwnedCellXCentroids
  | getOwnedCellYCentroids
  | getOwnedCellZCentroids
  | getOwnedCellAreas
  | getOwnedCellNaturalIDs
  | getBoundaryEdgeXCentroids
  | getBoundaryEdgeYCentroids
  | getBoundaryEdgeZCentroids
  | getBoundaryCellXCentroids
  | getBoundaryCellYCentroids
  | getBoundaryCellZCentroids
  | getBoundaryCellNaturalIDs
  | setDomainWaterSource
  | setRegionalWaterSource
  | setDomainXMomentumSource
  | setDomainYMomentumSource
  | setDomainManningsN
  | setInitialConditions
  | createPrognosticVec
  | createOneDOFGlobalVec
  | readOneDOFLocalVecFromBinaryFile
  | readOneDOFGlobalVecFromBinaryFile
  | writeOneDOFGlobalVecToBinaryFile
  | writeHDF5CheckpointFile
  | readHDF5CheckpointFile
  | advance
  | finished
  | restarted
  | destroy
  deriving DecidableEq, Repr

/-- The prototypes of the functions (`/repo/include/rdycore.h:16-141`, `/repo/src/rdycore.c:56`, `:176`);
the lines are given with each. -/
def CFun.params : CFun → List CPar
  -- `/repo/include/rdycore.h:16`
  | .getVersion => [.ptr .cint, .ptr .cint, .ptr .cint, .ptr .bool]
  -- `/repo/src/rdycore.c:56`
  | .getBuildConfigurationF90 => [.ptr .char]
  -- `/repo/include/rdycore.h:21`
  | .initFortran => []
  -- `/repo/include/rdycore.h:24`
  | .initialized => []
  -- `/repo/include/rdycore.h:23`
  | .finalize => []
  -- `/repo/src/rdycore.c:176`
  | .createF90 => [.ptr .cint, .str, .ptr .obj]
  -- `/repo/include/rdycore.h:27`
  | .setLogFile => [.val .obj, .str]
  -- `/repo/include/rdycore.h:31`
  | .setup => [.val .obj]
  -- `/repo/include/rdycore.h:35`
  | .mmsSetup => [.val .obj]
  -- `/repo/include/rdycore.h:36`
  | .mmsComputeSolution => [.val .obj, .val .real, .val .vec]
  -- `/repo/include/rdycore.h:37`
  | .mmsEnforceBoundaryConditions => [.val .obj, .val .real]
  -- `/repo/include/rdycore.h:38`
  | .mmsComputeSourceTerms => [.val .obj, .val .real]
  -- `/repo/include/rdycore.h:39`
  | .mmsUpdateMaterialProperties => [.val .obj]
  -- `/repo/include/rdycore.h:40`
  | .mmsComputeErrorNorms => [.val .obj, .val .real, .ptr .real, .ptr .real, .ptr .real,
      .ptr .pint, .ptr .real]
  -- `/repo/include/rdycore.h:41`
  | .mmsEstimateConvergenceRates => [.val .obj, .ptr .real, .ptr .real, .ptr .real]
  -- `/repo/include/rdycore.h:42`
  | .mmsRun => [.val .obj]
  -- `/repo/include/rdycore.h:68`
  | .getNumGlobalCells => [.val .obj, .ptr .pint]
  -- `/repo/include/rdycore.h:69`
  | .getNumOwnedCells => [.val .obj, .ptr .pint]
  -- `/repo/include/rdycore.h:70`
  | .getNumBoundaryConditions => [.val .obj, .ptr .pint]
  -- `/repo/include/rdycore.h:71`
  | .getNumBoundaryEdges => [.val .obj, .val .pint, .ptr .pint]
  -- `/repo/include/rdycore.h:95-96`
  | .setFlowDirichletBoundaryValues => [.val .obj, .val .pint, .val .pint, .val .pint, .ptr .real]
  -- `/repo/include/rdycore.h:72`
  | .getBoundaryConditionFlowType => [.val .obj, .val .pint, .ptr .pint]
  -- `/repo/include/rdycore.h:60`
  | .getTimeUnit => [.val .obj, .ptr .cint]
  -- `/repo/include/rdycore.h:61`
  | .getTime => [.val .obj, .val .cint, .ptr .real]
  -- `/repo/include/rdycore.h:62`
  | .getTimeStep => [.val .obj, .val .cint, .ptr .real]
  -- `/repo/include/rdycore.h:63`
  | .convertTime => [.val .cint, .val .real, .val .cint, .ptr .real]
  -- `/repo/include/rdycore.h:64`
  | .getStep => [.val .obj, .ptr .pint]
  -- `/repo/include/rdycore.h:65`
  | .getCouplingInterval => [.val .obj, .val .cint, .ptr .real]
  -- `/repo/include/rdycore.h:66`
  | .setCouplingInterval => [.val .obj, .val .cint, .val .real]
  -- `/repo/include/rdycore.h:74`
  | .getOwnedCellHeights => [.val .obj, .val .pint, .ptr .real]
  -- `/repo/include/rdycore.h:75`
  | .getOwnedCellXMomenta => [.val .obj, .val .pint, .ptr .real]
  -- `/repo/include/rdycore.h:76`
  | .getOwnedCellYMomenta => [.val .obj, .val .pint, .ptr .real]
  -- `/repo/include/rdycore.h:78`
  | .getOwnedCellXCentroids => [.val .obj, .val .pint, .ptr .real]
  -- `/repo/include/rdycore.h:79`
  | .getOwnedCellYCentroids => [.val .obj, .val .pint, .ptr .real]
  -- `/repo/include/rdycore.h:80`
  | .getOwnedCellZCentroids => [.val .obj, .val .pint, .ptr .real]
  -- `/repo/include/rdycore.h:81`
  | .getOwnedCellAreas => [.val .obj, .val .pint, .ptr .real]
  -- `/repo/include/rdycore.h:82`
  | .getOwnedCellNaturalIDs => [.val .obj, .val .pint, .ptr .pint]
  -- `/repo/include/rdycore.h:84`
  | .getBoundaryEdgeXCentroids => [.val .obj, .val .pint, .val .pint, .ptr .real]
  -- `/repo/include/rdycore.h:85`
  | .getBoundaryEdgeYCentroids => [.val .obj, .val .pint, .val .pint, .ptr .real]
  -- `/repo/include/rdycore.h:86`
  | .getBoundaryEdgeZCentroids => [.val .obj, .val .pint, .val .pint, .ptr .real]
  -- `/repo/include/rdycore.h:87`
  | .getBoundaryCellXCentroids => [.val .obj, .val .pint, .val .pint, .ptr .real]
  -- `/repo/include/rdycore.h:88`
  | .getBoundaryCellYCentroids => [.val .obj, .val .pint, .val .pint, .ptr .real]
  -- `/repo/include/rdycore.h:89`
  | .getBoundaryCellZCentroids => [.val .obj, .val .pint, .val .pint, .ptr .real]
  -- `/repo/include/rdycore.h:93`
  | .getBoundaryCellNaturalIDs => [.val .obj, .val .pint, .val .pint, .ptr .pint]
  -- `/repo/include/rdycore.h:113`
  | .setDomainWaterSource => [.val .obj, .val .pint, .ptr .real]
  -- `/repo/include/rdycore.h:104`
  | .setRegionalWaterSource => [.val .obj, .val .pint, .val .pint, .ptr .real]
  -- `/repo/include/rdycore.h:114`
  | .setDomainXMomentumSource => [.val .obj, .val .pint, .ptr .real]
  -- `/repo/include/rdycore.h:115`
  | .setDomainYMomentumSource => [.val .obj, .val .pint, .ptr .real]
  -- `/repo/include/rdycore.h:118`
  | .setDomainManningsN => [.val .obj, .val .pint, .ptr .real]
  -- `/repo/include/rdycore.h:119`
  | .setInitialConditions => [.val .obj, .val .vec]
  -- `/repo/include/rdycore.h:121`
  | .createPrognosticVec => [.val .obj, .ptr .vec]
  -- `/repo/include/rdycore.h:127`
  | .createOneDOFGlobalVec => [.val .obj, .ptr .vec]
  -- `/repo/include/rdycore.h:122`
  | .readOneDOFLocalVecFromBinaryFile => [.val .obj, .str, .ptr .vec]
  -- `/repo/include/rdycore.h:123`
  | .readOneDOFGlobalVecFromBinaryFile => [.val .obj, .str, .ptr .vec]
  -- `/repo/include/rdycore.h:126`
  | .writeOneDOFGlobalVecToBinaryFile => [.val .obj, .str, .ptr .vec]
  -- `/repo/include/rdycore.h:129`
  | .writeHDF5CheckpointFile => [.val .obj, .str]
  -- `/repo/include/rdycore.h:130`
  | .readHDF5CheckpointFile => [.val .obj, .str]
  -- `/repo/include/rdycore.h:51`
  | .advance => [.val .obj]
  -- `/repo/include/rdycore.h:54`
  | .finished => [.val .obj]
  -- `/repo/include/rdycore.h:55`
  | .restarted => [.val .obj]
  -- `/repo/include/rdycore.h:32`
  | .destroy => [.ptr .obj]

/-- The procedures of the Fortran module (`/repo/src/f90-mod/rdycore.F90:467-1008`). -/
inductive FProc
  | getVersion
  | getBuildConfiguration
  | init
  | finalize
  | initialized
  | create
  | setLogFile
  | setup
  | mmsSetup
  | mmsComputeSolution
  | mmsEnforceBoundaryConditions
  | mmsComputeSourceTerms
  | mmsUpdateMaterialProperties
  | mmsComputeErrorNorms
  | mmsEstimateConvergenceRates
  | mmsRun
  | getNumGlobalCells
  | getNumOwnedCells
  | getNumBoundaryConditions
  | getNumBoundaryEdges
  | setFlowDirichletBoundaryValues
  | getBoundaryConditionFlowType
  | getTimeUnit
  | getTime
  | getTimeStep
  | convertTime
  | getCouplingInterval
  | setCouplingInterval
  | getStep
  | getOwnedCellHeights
  | getOwnedCellXMomenta
  | getOwnedCellYMomenta
  | getOwnedCellXCentroids
  | getOwnedCellYCentroids
  | getOwnedCellZCentroids
  | getOwnedCellAreas
  | getOwnedCellNaturalIDs
  | getBoundaryEdgeXCentroids
  | getBoundaryEdgeYCentroids
  | getBoundaryEdgeZCentroids
  | getBoundaryCellXCentroids
  | getBoundaryCellYCentroids
  | getBoundaryCellZCentroids
  | getBoundaryCellNaturalIDs
  | setDomainWaterSource
  | setRegionalWaterSource
  | setDomainXMomentumSource
  | setDomainYMomentumSource
  | setDomainManningsN
  | setInitialConditions
  | createPrognosticVec
  | createOneDOFGlobalVec
  | readOneDOFLocalVecFromBinaryFile
  | readOneDOFGlobalVecFromBinaryFile
  | writeOneDOFGlobalVecToBinaryFile
  | writeHDF5CheckpointFile
  | readHDF5CheckpointFile
  | advance
  | finished
  | restarted
  | destroy
  deriving DecidableEq, Repr

/-- All procedures of the Fortran module (`/repo/src/f90-mod/rdycore.F90:467-1008`). -/
def FProc.all : List FProc :=
  [.getVersion,
    .getBuildConfiguration,
    .init,
    .finalize,
    .initialized,
    .create,
    .setLogFile,
    .setup,
    .mmsSetup,
    .mmsComputeSolution,
    .mmsEnforceBoundaryConditions,
    .mmsComputeSourceTerms,
    .mmsUpdateMaterialProperties,
    .mmsComputeErrorNorms,
    .mmsEstimateConvergenceRates,
    .mmsRun,
    .getNumGlobalCells,
    .getNumOwnedCells,
    .getNumBoundaryConditions,
    .getNumBoundaryEdges,
    .setFlowDirichletBoundaryValues,
    .getBoundaryConditionFlowType,
    .getTimeUnit,
    .getTime,
    .getTimeStep,
    .convertTime,
    .getCouplingInterval,
    .setCouplingInterval,
    .getStep,
    .getOwnedCellHeights,
    .getOwnedCellXMomenta,
    .getOwnedCellYMomenta,
    .getOwnedCellXCentroids,
    .getOwnedCellYCentroids,
    .getOwnedCellZCentroids,
    .getOwnedCellAreas,
    .getOwnedCellNaturalIDs,
    .getBoundaryEdgeXCentroids,
    .getBoundaryEdgeYCentroids,
    .getBoundaryEdgeZCentroids,
    .getBoundaryCellXCentroids,
    .getBoundaryCellYCentroids,
    .getBoundaryCellZCentroids,
    .getBoundaryCellNaturalIDs,
    .setDomainWaterSource,
    .setRegionalWaterSource,
    .setDomainXMomentumSource,
    .setDomainYMomentumSource,
    .setDomainManningsN,
    .setInitialConditions,
    .createPrognosticVec,
    .createOneDOFGlobalVec,
    .readOneDOFLocalVecFromBinaryFile,
    .readOneDOFGlobalVecFromBinaryFile,
    .writeOneDOFGlobalVecToBinaryFile,
    .writeHDF5CheckpointFile,
    .readHDF5CheckpointFile,
    .advance,
    .finished,
    .restarted,
    .destroy]

/-- The dummy arguments of the procedures (without `ierr`), and whether the argument is the number of a
boundary (`/repo/src/f90-mod/rdycore.F90:467-1008`); the lines are given with each. -/
def FProc.dummies : FProc → List Dummy
  -- `/repo/src/f90-mod/rdycore.F90:467-472`
  | .getVersion => [.pint, .pint, .pint, .bool]
  -- `/repo/src/f90-mod/rdycore.F90:474-481`
  | .getBuildConfiguration => [.text]
  -- `/repo/src/f90-mod/rdycore.F90:483-489`
  | .init => []
  -- `/repo/src/f90-mod/rdycore.F90:491-494`
  | .finalize => []
  -- `/repo/src/f90-mod/rdycore.F90:496-498`
  | .initialized => []
  -- `/repo/src/f90-mod/rdycore.F90:500-516`
  | .create => [.cint, .text, .obj]
  -- `/repo/src/f90-mod/rdycore.F90:518-533`
  | .setLogFile => [.obj, .text]
  -- `/repo/src/f90-mod/rdycore.F90:535-539`
  | .setup => [.obj]
  -- `/repo/src/f90-mod/rdycore.F90:541-545`
  | .mmsSetup => [.obj]
  -- `/repo/src/f90-mod/rdycore.F90:547-554`
  | .mmsComputeSolution => [.obj, .real, .vec]
  -- `/repo/src/f90-mod/rdycore.F90:556-561`
  | .mmsEnforceBoundaryConditions => [.obj, .real]
  -- `/repo/src/f90-mod/rdycore.F90:563-568`
  | .mmsComputeSourceTerms => [.obj, .real]
  -- `/repo/src/f90-mod/rdycore.F90:570-574`
  | .mmsUpdateMaterialProperties => [.obj]
  -- `/repo/src/f90-mod/rdycore.F90:576-586`
  | .mmsComputeErrorNorms => [.obj, .real, .arr .real, .arr .real, .arr .real, .pint, .real]
  -- `/repo/src/f90-mod/rdycore.F90:588-596`
  | .mmsEstimateConvergenceRates => [.obj, .pint, .arr .real, .arr .real, .arr .real]
  -- `/repo/src/f90-mod/rdycore.F90:598-602`
  | .mmsRun => [.obj]
  -- `/repo/src/f90-mod/rdycore.F90:604-609`
  | .getNumGlobalCells => [.obj, .pint]
  -- `/repo/src/f90-mod/rdycore.F90:611-616`
  | .getNumOwnedCells => [.obj, .pint]
  -- `/repo/src/f90-mod/rdycore.F90:618-623`
  | .getNumBoundaryConditions => [.obj, .pint]
  -- `/repo/src/f90-mod/rdycore.F90:625-631`
  | .getNumBoundaryEdges => [.obj, .index, .pint]
  -- `/repo/src/f90-mod/rdycore.F90:633-641`
  | .setFlowDirichletBoundaryValues => [.obj, .index, .pint, .pint, .arr .real]
  -- `/repo/src/f90-mod/rdycore.F90:643-649`
  | .getBoundaryConditionFlowType => [.obj, .index, .pint]
  -- `/repo/src/f90-mod/rdycore.F90:651-656`
  | .getTimeUnit => [.obj, .cint]
  -- `/repo/src/f90-mod/rdycore.F90:658-664`
  | .getTime => [.obj, .cint, .real]
  -- `/repo/src/f90-mod/rdycore.F90:666-672`
  | .getTimeStep => [.obj, .cint, .real]
  -- `/repo/src/f90-mod/rdycore.F90:674-681`
  | .convertTime => [.cint, .real, .cint, .real]
  -- `/repo/src/f90-mod/rdycore.F90:683-689`
  | .getCouplingInterval => [.obj, .cint, .real]
  -- `/repo/src/f90-mod/rdycore.F90:691-697`
  | .setCouplingInterval => [.obj, .cint, .real]
  -- `/repo/src/f90-mod/rdycore.F90:699-704`
  | .getStep => [.obj, .pint]
  -- `/repo/src/f90-mod/rdycore.F90:706-712`
  | .getOwnedCellHeights => [.obj, .pint, .arr .real]
  -- `/repo/src/f90-mod/rdycore.F90:714-720`
  | .getOwnedCellXMomenta => [.obj, .pint, .arr .real]
  -- `/repo/src/f90-mod/rdycore.F90:722-728`
  | .getOwnedCellYMomenta => [.obj, .pint, .arr .real]
  -- `/repo/src/f90-mod/rdycore.F90:730-736`
  | .getOwnedCellXCentroids => [.obj, .pint, .arr .real]
  -- `/repo/src/f90-mod/rdycore.F90:738-744`
  | .getOwnedCellYCentroids => [.obj, .pint, .arr .real]
  -- `/repo/src/f90-mod/rdycore.F90:746-752`
  | .getOwnedCellZCentroids => [.obj, .pint, .arr .real]
  -- `/repo/src/f90-mod/rdycore.F90:754-760`
  | .getOwnedCellAreas => [.obj, .pint, .arr .real]
  -- `/repo/src/f90-mod/rdycore.F90:762-768`
  | .getOwnedCellNaturalIDs => [.obj, .pint, .arr .pint]
  -- `/repo/src/f90-mod/rdycore.F90:770-777`
  | .getBoundaryEdgeXCentroids => [.obj, .index, .pint, .arr .real]
  -- `/repo/src/f90-mod/rdycore.F90:779-786`
  | .getBoundaryEdgeYCentroids => [.obj, .index, .pint, .arr .real]
  -- `/repo/src/f90-mod/rdycore.F90:788-795`
  | .getBoundaryEdgeZCentroids => [.obj, .index, .pint, .arr .real]
  -- `/repo/src/f90-mod/rdycore.F90:797-804`
  | .getBoundaryCellXCentroids => [.obj, .index, .pint, .arr .real]
  -- `/repo/src/f90-mod/rdycore.F90:806-813`
  | .getBoundaryCellYCentroids => [.obj, .index, .pint, .arr .real]
  -- `/repo/src/f90-mod/rdycore.F90:815-822`
  | .getBoundaryCellZCentroids => [.obj, .index, .pint, .arr .real]
  -- `/repo/src/f90-mod/rdycore.F90:824-831`
  | .getBoundaryCellNaturalIDs => [.obj, .index, .pint, .arr .pint]
  -- `/repo/src/f90-mod/rdycore.F90:833-839`
  | .setDomainWaterSource => [.obj, .pint, .arr .real]
  -- `/repo/src/f90-mod/rdycore.F90:841-848`
  | .setRegionalWaterSource => [.obj, .pint, .pint, .arr .real]
  -- `/repo/src/f90-mod/rdycore.F90:850-856`
  | .setDomainXMomentumSource => [.obj, .pint, .arr .real]
  -- `/repo/src/f90-mod/rdycore.F90:858-864`
  | .setDomainYMomentumSource => [.obj, .pint, .arr .real]
  -- `/repo/src/f90-mod/rdycore.F90:866-872`
  | .setDomainManningsN => [.obj, .pint, .arr .real]
  -- `/repo/src/f90-mod/rdycore.F90:874-880`
  | .setInitialConditions => [.obj, .vec]
  -- `/repo/src/f90-mod/rdycore.F90:882-888`
  | .createPrognosticVec => [.obj, .vec]
  -- `/repo/src/f90-mod/rdycore.F90:890-896`
  | .createOneDOFGlobalVec => [.obj, .vec]
  -- `/repo/src/f90-mod/rdycore.F90:898-914`
  | .readOneDOFLocalVecFromBinaryFile => [.obj, .text, .vec]
  -- `/repo/src/f90-mod/rdycore.F90:916-932`
  | .readOneDOFGlobalVecFromBinaryFile => [.obj, .text, .vec]
  -- `/repo/src/f90-mod/rdycore.F90:934-950`
  | .writeOneDOFGlobalVecToBinaryFile => [.obj, .text, .vec]
  -- `/repo/src/f90-mod/rdycore.F90:952-967`
  | .writeHDF5CheckpointFile => [.obj, .text]
  -- `/repo/src/f90-mod/rdycore.F90:969-984`
  | .readHDF5CheckpointFile => [.obj, .text]
  -- `/repo/src/f90-mod/rdycore.F90:986-990`
  | .advance => [.obj]
  -- `/repo/src/f90-mod/rdycore.F90:992-996`
  | .finished => [.obj]
  -- `/repo/src/f90-mod/rdycore.F90:998-1002`
  | .restarted => [.obj]
  -- `/repo/src/f90-mod/rdycore.F90:1004-1008`
  | .destroy => [.obj]

/-- The call made by each procedure: the arguments that it passes (by position of the dummy argument they
are made of) to the C-bound function (`/repo/src/f90-mod/rdycore.F90:467-1008`); `none` if there is no
call. -/
def FProc.call : FProc → Option (List Actual × CFun × List (FKind × Passing))
  -- `/repo/src/f90-mod/rdycore.F90:467-472`
  | .getVersion => none
  -- `/repo/src/f90-mod/rdycore.F90:59-62`, `:474-481`
  | .getBuildConfiguration => some ([.loc 0], .getBuildConfigurationF90, [(.addr, .value)])
  -- `/repo/src/f90-mod/rdycore.F90:64-66`, `:483-489`
  | .init => some ([], .initFortran, [])
  -- `/repo/src/f90-mod/rdycore.F90:72-74`, `:491-494`
  | .finalize => some ([], .finalize, [])
  -- `/repo/src/f90-mod/rdycore.F90:68-70`, `:496-498`
  | .initialized => some ([], .initialized, [])
  -- `/repo/src/f90-mod/rdycore.F90:76-81`, `:500-516`
  | .create => some ([.arg 0, .text 1, .handle 2], .createF90,
      [(.cint, .ref), (.addr, .value), (.addr, .ref)])
  -- `/repo/src/f90-mod/rdycore.F90:83-87`, `:518-533`
  | .setLogFile => some ([.handle 0, .text 1], .setLogFile, [(.addr, .value), (.addr, .value)])
  -- `/repo/src/f90-mod/rdycore.F90:89-92`, `:535-539`
  | .setup => some ([.handle 0], .setup, [(.addr, .value)])
  -- `/repo/src/f90-mod/rdycore.F90:94-97`, `:541-545`
  | .mmsSetup => some ([.handle 0], .mmsSetup, [(.addr, .value)])
  -- `/repo/src/f90-mod/rdycore.F90:99-105`, `:547-554`
  | .mmsComputeSolution => some ([.handle 0, .arg 1, .handle 2], .mmsComputeSolution,
      [(.addr, .value), (.real, .value), (.vec, .value)])
  -- `/repo/src/f90-mod/rdycore.F90:107-111`, `:556-561`
  | .mmsEnforceBoundaryConditions => some ([.handle 0, .arg 1], .mmsEnforceBoundaryConditions,
      [(.addr, .value), (.real, .value)])
  -- `/repo/src/f90-mod/rdycore.F90:113-117`, `:563-568`
  | .mmsComputeSourceTerms => some ([.handle 0, .arg 1], .mmsComputeSourceTerms,
      [(.addr, .value), (.real, .value)])
  -- `/repo/src/f90-mod/rdycore.F90:119-122`, `:570-574`
  | .mmsUpdateMaterialProperties => some ([.handle 0], .mmsUpdateMaterialProperties,
      [(.addr, .value)])
  -- `/repo/src/f90-mod/rdycore.F90:124-132`, `:576-586`
  | .mmsComputeErrorNorms => some ([.handle 0, .arg 1, .loc 2, .loc 3, .loc 4, .arg 5, .arg 6],
      .mmsComputeErrorNorms,
      [(.addr, .value), (.real, .value), (.addr, .value), (.addr, .value), (.addr, .value),
       (.pint, .ref), (.real, .ref)])
  -- `/repo/src/f90-mod/rdycore.F90:134-140`, `:588-596`
  | .mmsEstimateConvergenceRates => some ([.handle 0, .arg 1, .loc 2, .loc 3, .loc 4],
      .mmsEstimateConvergenceRates,
      [(.addr, .value), (.pint, .value), (.addr, .value), (.addr, .value), (.addr, .value)])
  -- `/repo/src/f90-mod/rdycore.F90:142-145`, `:598-602`
  | .mmsRun => some ([.handle 0], .mmsRun, [(.addr, .value)])
  -- `/repo/src/f90-mod/rdycore.F90:147-151`, `:604-609`
  | .getNumGlobalCells => some ([.handle 0, .arg 1], .getNumGlobalCells,
      [(.addr, .value), (.pint, .ref)])
  -- `/repo/src/f90-mod/rdycore.F90:153-157`, `:611-616`
  | .getNumOwnedCells => some ([.handle 0, .arg 1], .getNumOwnedCells,
      [(.addr, .value), (.pint, .ref)])
  -- `/repo/src/f90-mod/rdycore.F90:159-163`, `:618-623`
  | .getNumBoundaryConditions => some ([.handle 0, .arg 1], .getNumBoundaryConditions,
      [(.addr, .value), (.pint, .ref)])
  -- `/repo/src/f90-mod/rdycore.F90:165-170`, `:625-631`
  | .getNumBoundaryEdges => some ([.handle 0, .pred 1, .arg 2], .getNumBoundaryEdges,
      [(.addr, .value), (.pint, .value), (.pint, .ref)])
  -- `/repo/src/f90-mod/rdycore.F90:172-179`, `:633-641`
  | .setFlowDirichletBoundaryValues => some ([.handle 0, .pred 1, .arg 2, .arg 3, .loc 4],
      .setFlowDirichletBoundaryValues,
      [(.addr, .value), (.pint, .value), (.pint, .value), (.pint, .value), (.addr, .value)])
  -- `/repo/src/f90-mod/rdycore.F90:181-186`, `:643-649`
  | .getBoundaryConditionFlowType => some ([.handle 0, .pred 1, .arg 2], .getBoundaryConditionFlowType,
      [(.addr, .value), (.pint, .value), (.pint, .ref)])
  -- `/repo/src/f90-mod/rdycore.F90:188-192`, `:651-656`
  | .getTimeUnit => some ([.handle 0, .arg 1], .getTimeUnit, [(.addr, .value), (.cint, .ref)])
  -- `/repo/src/f90-mod/rdycore.F90:194-199`, `:658-664`
  | .getTime => some ([.handle 0, .arg 1, .arg 2], .getTime,
      [(.addr, .value), (.cint, .value), (.real, .ref)])
  -- `/repo/src/f90-mod/rdycore.F90:201-206`, `:666-672`
  | .getTimeStep => some ([.handle 0, .arg 1, .arg 2], .getTimeStep,
      [(.addr, .value), (.cint, .value), (.real, .ref)])
  -- `/repo/src/f90-mod/rdycore.F90:208-214`, `:674-681`
  | .convertTime => some ([.arg 0, .arg 1, .arg 2, .arg 3], .convertTime,
      [(.cint, .value), (.real, .value), (.cint, .value), (.real, .ref)])
  -- `/repo/src/f90-mod/rdycore.F90:222-227`, `:683-689`
  | .getCouplingInterval => some ([.handle 0, .arg 1, .arg 2], .getCouplingInterval,
      [(.addr, .value), (.cint, .value), (.real, .ref)])
  -- `/repo/src/f90-mod/rdycore.F90:229-234`, `:691-697`
  | .setCouplingInterval => some ([.handle 0, .arg 1, .arg 2], .setCouplingInterval,
      [(.addr, .value), (.cint, .value), (.real, .value)])
  -- `/repo/src/f90-mod/rdycore.F90:216-220`, `:699-704`
  | .getStep => some ([.handle 0, .arg 1], .getStep, [(.addr, .value), (.pint, .ref)])
  -- `/repo/src/f90-mod/rdycore.F90:236-241`, `:706-712`
  | .getOwnedCellHeights => some ([.handle 0, .arg 1, .loc 2], .getOwnedCellHeights,
      [(.addr, .value), (.pint, .value), (.addr, .value)])
  -- `/repo/src/f90-mod/rdycore.F90:243-248`, `:714-720`
  | .getOwnedCellXMomenta => some ([.handle 0, .arg 1, .loc 2], .getOwnedCellXMomenta,
      [(.addr, .value), (.pint, .value), (.addr, .value)])
  -- `/repo/src/f90-mod/rdycore.F90:250-255`, `:722-728`
  | .getOwnedCellYMomenta => some ([.handle 0, .arg 1, .loc 2], .getOwnedCellYMomenta,
      [(.addr, .value), (.pint, .value), (.addr, .value)])
  -- `/repo/src/f90-mod/rdycore.F90:257-262`, `:730-736`
  | .getOwnedCellXCentroids => some ([.handle 0, .arg 1, .loc 2], .getOwnedCellXCentroids,
      [(.addr, .value), (.pint, .value), (.addr, .value)])
  -- `/repo/src/f90-mod/rdycore.F90:264-269`, `:738-744`
  | .getOwnedCellYCentroids => some ([.handle 0, .arg 1, .loc 2], .getOwnedCellYCentroids,
      [(.addr, .value), (.pint, .value), (.addr, .value)])
  -- `/repo/src/f90-mod/rdycore.F90:271-276`, `:746-752`
  | .getOwnedCellZCentroids => some ([.handle 0, .arg 1, .loc 2], .getOwnedCellZCentroids,
      [(.addr, .value), (.pint, .value), (.addr, .value)])
  -- `/repo/src/f90-mod/rdycore.F90:278-283`, `:754-760`
  | .getOwnedCellAreas => some ([.handle 0, .arg 1, .loc 2], .getOwnedCellAreas,
      [(.addr, .value), (.pint, .value), (.addr, .value)])
  -- `/repo/src/f90-mod/rdycore.F90:285-290`, `:762-768`
  | .getOwnedCellNaturalIDs => some ([.handle 0, .arg 1, .loc 2], .getOwnedCellNaturalIDs,
      [(.addr, .value), (.pint, .value), (.addr, .value)])
  -- `/repo/src/f90-mod/rdycore.F90:292-298`, `:770-777`
  | .getBoundaryEdgeXCentroids => some ([.handle 0, .pred 1, .arg 2, .loc 3], .getBoundaryEdgeXCentroids,
      [(.addr, .value), (.pint, .value), (.pint, .value), (.addr, .value)])
  -- `/repo/src/f90-mod/rdycore.F90:300-306`, `:779-786`
  | .getBoundaryEdgeYCentroids => some ([.handle 0, .pred 1, .arg 2, .loc 3], .getBoundaryEdgeYCentroids,
      [(.addr, .value), (.pint, .value), (.pint, .value), (.addr, .value)])
  -- `/repo/src/f90-mod/rdycore.F90:308-314`, `:788-795`
  | .getBoundaryEdgeZCentroids => some ([.handle 0, .pred 1, .arg 2, .loc 3], .getBoundaryEdgeZCentroids,
      [(.addr, .value), (.pint, .value), (.pint, .value), (.addr, .value)])
  -- `/repo/src/f90-mod/rdycore.F90:316-322`, `:797-804`
  | .getBoundaryCellXCentroids => some ([.handle 0, .pred 1, .arg 2, .loc 3], .getBoundaryCellXCentroids,
      [(.addr, .value), (.pint, .value), (.pint, .value), (.addr, .value)])
  -- `/repo/src/f90-mod/rdycore.F90:324-330`, `:806-813`
  | .getBoundaryCellYCentroids => some ([.handle 0, .pred 1, .arg 2, .loc 3], .getBoundaryCellYCentroids,
      [(.addr, .value), (.pint, .value), (.pint, .value), (.addr, .value)])
  -- `/repo/src/f90-mod/rdycore.F90:332-338`, `:815-822`
  | .getBoundaryCellZCentroids => some ([.handle 0, .pred 1, .arg 2, .loc 3], .getBoundaryCellZCentroids,
      [(.addr, .value), (.pint, .value), (.pint, .value), (.addr, .value)])
  -- `/repo/src/f90-mod/rdycore.F90:340-346`, `:824-831`
  | .getBoundaryCellNaturalIDs => some ([.handle 0, .pred 1, .arg 2, .loc 3], .getBoundaryCellNaturalIDs,
      [(.addr, .value), (.pint, .value), (.pint, .value), (.addr, .value)])
  -- `/repo/src/f90-mod/rdycore.F90:348-353`, `:833-839`
  | .setDomainWaterSource => some ([.handle 0, .arg 1, .loc 2], .setDomainWaterSource,
      [(.addr, .value), (.pint, .value), (.addr, .value)])
  -- `/repo/src/f90-mod/rdycore.F90:355-361`, `:841-848`
  | .setRegionalWaterSource => some ([.handle 0, .arg 1, .arg 2, .loc 3], .setRegionalWaterSource,
      [(.addr, .value), (.pint, .value), (.pint, .value), (.addr, .value)])
  -- `/repo/src/f90-mod/rdycore.F90:363-368`, `:850-856`
  | .setDomainXMomentumSource => some ([.handle 0, .arg 1, .loc 2], .setDomainXMomentumSource,
      [(.addr, .value), (.pint, .value), (.addr, .value)])
  -- `/repo/src/f90-mod/rdycore.F90:370-375`, `:858-864`
  | .setDomainYMomentumSource => some ([.handle 0, .arg 1, .loc 2], .setDomainYMomentumSource,
      [(.addr, .value), (.pint, .value), (.addr, .value)])
  -- `/repo/src/f90-mod/rdycore.F90:377-382`, `:866-872`
  | .setDomainManningsN => some ([.handle 0, .arg 1, .loc 2], .setDomainManningsN,
      [(.addr, .value), (.pint, .value), (.addr, .value)])
  -- `/repo/src/f90-mod/rdycore.F90:384-389`, `:874-880`
  | .setInitialConditions => some ([.handle 0, .handle 1], .setInitialConditions,
      [(.addr, .value), (.vec, .value)])
  -- `/repo/src/f90-mod/rdycore.F90:391-396`, `:882-888`
  | .createPrognosticVec => some ([.handle 0, .handle 1], .createPrognosticVec,
      [(.addr, .value), (.vec, .ref)])
  -- `/repo/src/f90-mod/rdycore.F90:398-403`, `:890-896`
  | .createOneDOFGlobalVec => some ([.handle 0, .handle 1], .createOneDOFGlobalVec,
      [(.addr, .value), (.vec, .ref)])
  -- `/repo/src/f90-mod/rdycore.F90:405-411`, `:898-914`
  | .readOneDOFLocalVecFromBinaryFile => some ([.handle 0, .text 1, .handle 2],
      .readOneDOFLocalVecFromBinaryFile,
      [(.addr, .value), (.addr, .value), (.vec, .ref)])
  -- `/repo/src/f90-mod/rdycore.F90:413-419`, `:916-932`
  | .readOneDOFGlobalVecFromBinaryFile => some ([.handle 0, .text 1, .handle 2],
      .readOneDOFGlobalVecFromBinaryFile,
      [(.addr, .value), (.addr, .value), (.vec, .ref)])
  -- `/repo/src/f90-mod/rdycore.F90:421-427`, `:934-950`
  | .writeOneDOFGlobalVecToBinaryFile => some ([.handle 0, .text 1, .handle 2],
      .writeOneDOFGlobalVecToBinaryFile,
      [(.addr, .value), (.addr, .value), (.vec, .ref)])
  -- `/repo/src/f90-mod/rdycore.F90:429-434`, `:952-967`
  | .writeHDF5CheckpointFile => some ([.handle 0, .text 1], .writeHDF5CheckpointFile,
      [(.addr, .value), (.addr, .value)])
  -- `/repo/src/f90-mod/rdycore.F90:436-441`, `:969-984`
  | .readHDF5CheckpointFile => some ([.handle 0, .text 1], .readHDF5CheckpointFile,
      [(.addr, .value), (.addr, .value)])
  -- `/repo/src/f90-mod/rdycore.F90:443-446`, `:986-990`
  | .advance => some ([.handle 0], .advance, [(.addr, .value)])
  -- `/repo/src/f90-mod/rdycore.F90:448-451`, `:992-996`
  | .finished => some ([.handle 0], .finished, [(.addr, .value)])
  -- `/repo/src/f90-mod/rdycore.F90:453-456`, `:998-1002`
  | .restarted => some ([.handle 0], .restarted, [(.addr, .value)])
  -- `/repo/src/f90-mod/rdycore.F90:458-461`, `:1004-1008`
  | .destroy => some ([.handle 0], .destroy, [(.addr, .ref)])
/-- What a Fortran program gives for a dummy argument: the contents of the variable and its address
(`/repo/src/f90-mod/rdycore.F90:467-1008`).  Of an array only the address matters. -/
inductive FVal
  | handle (h loc : ℕ)
  | int (n : ℤ) (loc : ℕ)
  | real (x : ℝ) (loc : ℕ)
  | bool (b : Bool) (loc : ℕ)
  | arr (loc : ℕ)
  | text (s : Str) (loc : ℕ)

/-- The contents of a word (`/repo/src/f90-mod/rdycore.F90:467-1008`). -/
inductive Word
  | handle (h : ℕ)
  | int (n : ℤ)
  | real (x : ℝ)
  | bool (b : Bool)

/-- The value of an expression in a call: a word and the address of the variable holding it (if it is a
variable), the address of an array, or a text (`/repo/src/f90-mod/rdycore.F90:467-1008`). -/
inductive Ex
  | word (k : FKind) (v : Word) (loc : Option ℕ)
  | addr (k : CKind) (loc : ℕ)
  | text (s : Str)

/-- What a C function gets for a parameter: a word, the address of a word (or an array) of a kind, a text
(`/repo/include/rdycore.h:16-130`). -/
inductive CArg
  | handle (h : ℕ)
  | int (n : ℤ)
  | real (x : ℝ)
  | bool (b : Bool)
  | addr (k : CKind) (loc : ℕ)
  | text (s : Str)

/-- `len_trim`: the length without the blanks at the end
(`/repo/src/f90-mod/rdycore.F90:513`). -/
def lenTrim (s : Str) : ℕ := (s.reverse.dropWhile (· == ' ')).length

/-- What C reads from a buffer: everything in front of the first NUL; `none` if there is no NUL in the buffer
(C would read on behind it) (`/repo/src/rdycore.c:168`). -/
def cString : Str → Option Str
  | [] => none
  | c :: s => if c.toNat = 0 then some [] else (cString s).map (c :: ·)

/-- The text passed to C: `n = min(1023, len_trim(filename))`, `config_file(1:n) = filename(1:n)`,
`config_file(n+1:n+1) = c_null_char` (`/repo/src/f90-mod/rdycore.F90:513-516`, and in the same way at
`:530-533`, `:908-911`, `:926-929`, `:944-947`, `:961-964`, `:978-981`); `old` is what was in the fresh
buffer of 1024 characters. -/
def textBuffer (old s : Str) : Str :=
  s.take (min 1023 (lenTrim s)) ++ Char.ofNat 0 :: old.drop (min 1023 (lenTrim s) + 1)

/-- The value of an argument of the call (`/repo/src/f90-mod/rdycore.F90:467-1008`); `none` if the compiler
refuses it. -/
def Actual.eval (old : Str) (ds : List Dummy) (args : List FVal) : Actual → Option Ex
  | .handle i =>
    match ds[i]?, args[i]? with
    | some .obj, some (.handle h l) => some (.word .addr (.handle h) (some l))
    | some .vec, some (.handle h l) => some (.word .vec (.handle h) (some l))
    | _, _ => none
  | .arg i =>
    match ds[i]?, args[i]? with
    | some .pint, some (.int n l) => some (.word .pint (.int n) (some l))
    | some .index, some (.int n l) => some (.word .pint (.int n) (some l))
    | some .cint, some (.int n l) => some (.word .cint (.int n) (some l))
    | some .real, some (.real x l) => some (.word .real (.real x) (some l))
    | some .bool, some (.bool b l) => some (.word .bool (.bool b) (some l))
    | _, _ => none
  | .pred i =>
    match ds[i]?, args[i]? with
    | some .pint, some (.int n _) => some (.word .pint (.int (n - 1)) none)
    | some .index, some (.int n _) => some (.word .pint (.int (n - 1)) none)
    | _, _ => none
  | .loc i =>
    match ds[i]?, args[i]? with
    | some (.arr k), some (.arr l) => some (.addr k l)
    | some .text, some (.text _ l) => some (.addr .char l)
    | _, _ => none
  | .text i =>
    match ds[i]?, args[i]? with
    | some .text, some (.text s _) => (cString (textBuffer old s)).map .text
    | _, _ => none

/-- The size of a word decides whether two types of integers can stand for each other: a `PetscInt` has 64
bits if PETSc is configured so (`/repo/src/f90-mod/rdycore.F90:52-463`). -/
def FKind.fits (wide : Bool) (k k' : FKind) : Bool :=
  k == k' || (!wide && ((k == .pint && k' == .cint) || (k == .cint && k' == .pint)))

/-- What stands on the stack after the call through a `bind(c)` interface: a word or an address
(`/repo/src/f90-mod/rdycore.F90:52-463`). -/
inductive Passed
  | word (k : FKind) (v : Word)
  | wordAt (k : FKind) (loc : ℕ)
  | addr (k : CKind) (loc : ℕ)
  | text (s : Str)

/-- Passing an argument through a `bind(c)` interface (`/repo/src/f90-mod/rdycore.F90:52-463`): the types must
agree (else the compiler refuses it); the address of an expression that is not a variable is that of a
temporary, which is of no use to the caller (`none`). -/
def pass (wide : Bool) : FKind × Passing → Ex → Option Passed
  | (k, .value), .word k' v _ => if k'.fits wide k then some (.word k v) else none
  | (k, .ref), .word k' _ (some l) => if k'.fits wide k then some (.wordAt k l) else none
  | (.addr, .value), .addr k l => some (.addr k l)
  | (.addr, .value), .text s => some (.text s)
  | _, _ => none

/-- The type of a word as C sees it (`/repo/include/rdycore.h:13-130`). -/
def FKind.asC : FKind → CKind
  | .addr => .obj
  | .vec => .vec
  | .pint => .pint
  | .cint => .cint
  | .real => .real
  | .bool => .bool

/-- Whether a word of one kind can be read as a word of another kind
(`/repo/include/rdycore.h:13-130`): as for `FKind.fits`. -/
def CKind.fits (wide : Bool) (k k' : CKind) : Bool :=
  k == k' || (!wide && ((k == .pint && k' == .cint) || (k == .cint && k' == .pint)))

/-- What the C function takes the word or address for (`/repo/include/rdycore.h:16-130`); `none` if it is not
what the prototype says (undefined behaviour). -/
def receive (wide : Bool) : CPar → Passed → Option CArg
  | .val k, .word k' v =>
    if k'.asC.fits wide k then
      match v with
      | .handle h => some (.handle h)
      | .int n => some (.int n)
      | .real x => some (.real x)
      | .bool b => some (.bool b)
    else none
  | .ptr k, .wordAt k' l => if k'.asC.fits wide k then some (.addr k l) else none
  | .ptr k, .addr k' l => if k'.fits wide k then some (.addr k l) else none
  | .str, .text s => some (.text s)
  | _, _ => none

/-- The arguments on their way from the wrapper to the C function, one by one; `none` if their numbers differ
or one of them does not arrive (`/repo/src/f90-mod/rdycore.F90:52-1008`). -/
def deliver (wide : Bool) (old : Str) (ds : List Dummy) (args : List FVal) :
    List Actual → List (FKind × Passing) → List CPar → Option (List CArg)
  | [], [], [] => some []
  | a :: as, b :: bs, c :: cs =>
    ((a.eval old ds args).bind (pass wide b)).bind (receive wide c) |>.bind fun x =>
      (deliver wide old ds args as bs cs).map (x :: ·)
  | _, _, _ => none

/-- What comes of calling a procedure of the module: no call of a C function, a call whose arguments do not
fit the prototype, or a call with these arguments (`/repo/src/f90-mod/rdycore.F90:467-1008`). -/
inductive Outcome
  | nothing
  | mismatch
  | call (f : CFun) (args : List CArg)

/-- Calling a procedure of the module (`/repo/src/f90-mod/rdycore.F90:467-1008`). -/
def FProc.run (wide : Bool) (old : Str) (p : FProc) (args : List FVal) : Outcome :=
  match p.call with
  | none => .nothing
  | some (as, f, bs) =>
    match deliver wide old p.dummies args as bs f.params with
    | none => .mismatch
    | some l => .call f l

/-- The time units of the C library (`/repo/include/rdycore.h:58`): an enumeration starting with 0. -/
def cTimeUnits : List (Str × ℤ) :=
  ["UNSET".toList, "SECONDS".toList, "MINUTES".toList, "HOURS".toList, "DAYS".toList, "MONTHS".toList,
    "YEARS".toList].zip [0, 1, 2, 3, 4, 5, 6]

/-- The time units of the Fortran module (`/repo/src/f90-mod/rdycore.F90:39-45`). -/
def fTimeUnits : List (Str × ℤ) :=
  [("UNSET".toList, 0), ("SECONDS".toList, 1), ("MINUTES".toList, 2), ("HOURS".toList, 3), ("DAYS".toList, 4),
    ("MONTHS".toList, 5), ("YEARS".toList, 6)]

/-- `strncpy(build_config, c_build_config, 1024)` (`/repo/src/rdycore.c:60`): the characters of the text, and
then NULs until the buffer is full. -/
def strncpy (n : ℕ) (s : Str) : Str := s.take n ++ List.replicate (n - s.length) (Char.ofNat 0)

/-- What the variable `build_config` of the caller holds after `RDyGetBuildConfiguration`
(`/repo/src/f90-mod/rdycore.F90:474-481`, `/repo/src/rdycore.c:56-62`). -/
def buildConfiguration (s : Str) : Str := strncpy 1024 s

/-- How PETSc declares `PetscBool`: as an enumeration (the size of an `int`) or, in recent releases, as `bool`
(`/repo/src/rdycore.c:186`). -/
inductive BoolType
  | enumeration | bool
  deriving DecidableEq, Repr

/-- `RDyRestarted`: returns the first character of the name of the restart file as a `PetscBool`
(`/repo/src/rdycore.c:186`): converted to `bool` it becomes 0 or 1, as an enumeration it stays what it is.
Characters are taken as non-negative. -/
def restarted (t : BoolType) (file : Str) : ℕ :=
  match file with
  | [] => 0
  | c :: _ =>
    match t with
    | .bool => if c.toNat = 0 then 0 else 1
    | .enumeration => c.toNat

/-- `rdygetversion_` as the interface of the module declares it, with three `PetscInt` and a `PetscBool`
(`/repo/src/f90-mod/rdycore.F90:53-57`); no procedure calls it. -/
def versionInterface : List (FKind × Passing) := [(.pint, .ref), (.pint, .ref), (.pint, .ref), (.bool, .ref)]

/-- `RDyInit` of the module: `PetscInitialize`, and `RDyInitFortran` if that went well and the library is not
initialized (`/repo/src/f90-mod/rdycore.F90:483-489`). -/
def Proc.initFromFortran (petscOk : Bool) (p : Proc) : Option Proc :=
  if petscOk && !p.initialized then p.init else some p

end RDy
