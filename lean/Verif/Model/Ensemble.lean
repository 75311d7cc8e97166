import Verif.Model.Output

/-!
Model of ensemble configuration (`/repo/src/ensemble.c`).
-/

namespace RDy

/-- `/repo/src/yaml_input.c:896-907`: the checks on the ensemble section. -/
def ensembleOk (size membersCount : ℤ) (nproc : ℕ) : Prop :=
  (size = 0 ∨ size > 1) ∧ size = membersCount ∧ (size ≠ 0 → (nproc : ℤ) % size = 0)

/-- `/repo/src/ensemble.c:9-10`: the member a process belongs to. -/
def memberOf (nproc size rank : ℕ) : ℕ := rank / (nproc / size)

/-- `/repo/src/ensemble.c:11-14`: `MPI_Comm_split(global_comm, color, 0, ...)` followed by
`MPI_Comm_size`: the number of processes in a member's communicator. -/
def memberSize (nproc size m : ℕ) : ℕ :=
  ((List.range nproc).filter fun r => memberOf nproc size r = m).length

/-- `/repo/src/ensemble.c:11-15`: the rank of a process in its member's communicator. With equal
keys, MPI orders the processes by their rank in the parent communicator. -/
def memberRank (nproc size rank : ℕ) : ℕ :=
  ((List.range rank).filter fun r => memberOf nproc size r = memberOf nproc size rank).length

/-- `/repo/src/ensemble.c:19-26`: the name of a member. -/
def memberName (given : Str) (size m : ℕ) : Option Str :=
  if given = [] then
    (numDigits size).map fun w => "ensemble_".toList ++ (padded w m).map digitChar
  else some given

/-- A named entry (material or condition) of a configuration.
`/repo/include/private/rdyconfigimpl.h:277-280`, `:328-392`. -/
structure Entry (α : Type) where
  name : Str
  value : α

/-- The inner loop at `/repo/src/ensemble.c:40-47` (and the same loops at `:51-59`, `:62-70`,
`:73-81`): replace the first entry with the name of the override. -/
def replaceFirst {α : Type} (o : Entry α) : List (Entry α) → List (Entry α)
  | [] => []
  | e :: es => if e.name = o.name then o :: es else e :: replaceFirst o es

/-- The outer loop at `/repo/src/ensemble.c:38-48`. -/
def overrideAll {α : Type} (base ovs : List (Entry α)) : List (Entry α) :=
  ovs.foldl (fun b o => replaceFirst o b) base

/-- The sections a member can override (`/repo/include/private/rdyconfigimpl.h:399-412`). The value
types are abstract. -/
structure Sections (α β γ δ ε : Type) where
  gridFile : Str
  materials : List (Entry α)
  flow : List (Entry β)
  sediment : List (Entry γ)
  salinity : List (Entry δ)
  temperature : List (Entry ε)

/-- `/repo/src/ensemble.c:29-83`: a member's sections are copied over the base configuration.
Temperature conditions are not handled by the code. -/
def applyMember {α β γ δ ε : Type} (base m : Sections α β γ δ ε) : Sections α β γ δ ε :=
  { gridFile := if m.gridFile = [] then base.gridFile else m.gridFile
    materials := overrideAll base.materials m.materials
    flow := overrideAll base.flow m.flow
    sediment := overrideAll base.sediment m.sediment
    salinity := overrideAll base.salinity m.salinity
    temperature := base.temperature }

end RDy
