import Verif.Model.Advance
import Verif.Model.Amr
import Verif.Model.AmrDriver
import Verif.Model.AmrRun
import Verif.Model.ApiRun
import Verif.Model.Batched
import Verif.Model.BcFile
import Verif.Model.BndRun
import Verif.Model.Boundaries
import Verif.Model.BoundaryIO
import Verif.Model.Calendar
import Verif.Model.Ceed
import Verif.Model.CeedFields
import Verif.Model.CeedHR
import Verif.Model.CeedMuscl
import Verif.Model.CeedOp
import Verif.Model.CeedSource
import Verif.Model.CeedTOp
import Verif.Model.CeedTSource
import Verif.Model.CeedTracer
import Verif.Model.Checkpoint
import Verif.Model.Conditions
import Verif.Model.Config
import Verif.Model.ConfigText
import Verif.Model.Courant
import Verif.Model.Data
import Verif.Model.Directories
import Verif.Model.Dispatch
import Verif.Model.Ensemble
import Verif.Model.Eta
import Verif.Model.FDriver
import Verif.Model.Fields
import Verif.Model.Forcing
import Verif.Model.ForcingData
import Verif.Model.ForcingOptions
import Verif.Model.Fortran
import Verif.Model.Lifecycle
import Verif.Model.Members
import Verif.Model.Mesh
import Verif.Model.MeshTables
import Verif.Model.Mms
import Verif.Model.MmsRun
import Verif.Model.Monitors
import Verif.Model.Muscl
import Verif.Model.Observations
import Verif.Model.Operator
import Verif.Model.Options
import Verif.Model.Output
import Verif.Model.OutputFields
import Verif.Model.Packed
import Verif.Model.PartStats
import Verif.Model.Parts
import Verif.Model.PetscOp
import Verif.Model.PetscRhs
import Verif.Model.PetscTRhs
import Verif.Model.Preload
import Verif.Model.Resources
import Verif.Model.Restart
import Verif.Model.Roe
import Verif.Model.SecondOrder
import Verif.Model.Simulations
import Verif.Model.Time
import Verif.Model.TimeSeries
import Verif.Model.Tracer
import Verif.Model.TracerHR
import Verif.Model.Xdmf
import Verif.Lemmas.Advance
import Verif.Lemmas.Batched
import Verif.Lemmas.BatchedRun
import Verif.Lemmas.BatchedTracer
import Verif.Lemmas.BndRun
import Verif.Lemmas.Calendar
import Verif.Lemmas.CeedHR
import Verif.Lemmas.CeedMuscl
import Verif.Lemmas.CeedOp
import Verif.Lemmas.CeedOpRun
import Verif.Lemmas.CeedSource
import Verif.Lemmas.CeedTOp
import Verif.Lemmas.CeedTSource
import Verif.Lemmas.Fields
import Verif.Lemmas.Lifecycle
import Verif.Lemmas.Mesh
import Verif.Lemmas.MeshTables
import Verif.Lemmas.Observations
import Verif.Lemmas.Operator
import Verif.Lemmas.Output
import Verif.Lemmas.Packed
import Verif.Lemmas.PackedRun
import Verif.Lemmas.PetscRhs
import Verif.Lemmas.PetscTRhs
import Verif.Lemmas.Resources
import Verif.Lemmas.Roe
import Verif.Lemmas.Xdmf
import Verif.Props.Advance
import Verif.Props.Amr
import Verif.Props.AmrDriver
import Verif.Props.AmrRun
import Verif.Props.ApiRun
import Verif.Props.Backends
import Verif.Props.BackendsRhs
import Verif.Props.Batched
import Verif.Props.BcFile
import Verif.Props.BndRun
import Verif.Props.Boundaries
import Verif.Props.BoundaryIO
import Verif.Props.Calendar
import Verif.Props.CeedFields
import Verif.Props.CeedHR
import Verif.Props.CeedMuscl
import Verif.Props.CeedOp
import Verif.Props.CeedSource
import Verif.Props.CeedTOp
import Verif.Props.CeedTSource
import Verif.Props.CeedTracer
import Verif.Props.Checkpoint
import Verif.Props.Conditions
import Verif.Props.Config
import Verif.Props.ConfigText
import Verif.Props.Conservation
import Verif.Props.Courant
import Verif.Props.Data
import Verif.Props.Decomposition
import Verif.Props.DecompositionCeed
import Verif.Props.DecompositionTracer
import Verif.Props.Directories
import Verif.Props.Dispatch
import Verif.Props.Ensemble
import Verif.Props.Eta
import Verif.Props.FDriver
import Verif.Props.Fields
import Verif.Props.Forcing
import Verif.Props.ForcingData
import Verif.Props.ForcingOptions
import Verif.Props.Fortran
import Verif.Props.Frame
import Verif.Props.FrameMesh
import Verif.Props.FrameTracer
import Verif.Props.Friction
import Verif.Props.LakeAtRest
import Verif.Props.Lifecycle
import Verif.Props.Members
import Verif.Props.Mesh
import Verif.Props.MeshTables
import Verif.Props.Mms
import Verif.Props.MmsRun
import Verif.Props.Monitors
import Verif.Props.Muscl
import Verif.Props.Observations
import Verif.Props.Options
import Verif.Props.Output
import Verif.Props.OutputFields
import Verif.Props.Packed
import Verif.Props.PartStats
import Verif.Props.Parts
import Verif.Props.PassiveTracers
import Verif.Props.PetscOp
import Verif.Props.PetscRhs
import Verif.Props.PetscTRhs
import Verif.Props.Positivity
import Verif.Props.Preload
import Verif.Props.Resources
import Verif.Props.Restart
import Verif.Props.Roe
import Verif.Props.SecondOrder
import Verif.Props.Simulations
import Verif.Props.Time
import Verif.Props.TimeSeries
import Verif.Props.Tracer
import Verif.Props.TracerCons
import Verif.Props.TracerHR
import Verif.Props.TracerMax
import Verif.Props.UniformFlow
import Verif.Props.Xdmf
