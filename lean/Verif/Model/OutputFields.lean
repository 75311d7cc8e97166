import Verif.Model.Output
import Verif.Model.Tracer

/-!
Model of the selection of output fields (`/repo/src/yaml_input.c:1118-1196`, `/repo/src/rdysetup.c:1405-1482`,
`/repo/src/xdmf_output.c:12-140,277-296,396-411`) and of the primitive variables that are written
(`/repo/src/swe/swe_petsc.c:787-791`, `/repo/src/tracer/tracer_petsc.c:715-725`,
`/repo/src/operator.c:262-299,656-672`).
-/

namespace RDy

/-! ### Names -/

/-- `snprintf(…, "<pre>%d<post>", i)` (`/repo/src/rdysetup.c:1417`); truncation at `MAX_NAME_LEN` is not
modelled. -/
def indexedName (pre : Str) (i : ℕ) (post : Str) : Str := pre ++ (decimal i).map digitChar ++ post

/-- `exact_output_fields`, `/repo/src/yaml_input.c:1121-1142` -/
def exactOutputFields : List Str :=
  ["Height".toList, "MomentumX".toList, "MomentumY".toList, "WaterSource".toList, "MomentumXSource".toList,
   "MomentumYSource".toList, "Height_Mean".toList, "MomentumX_Mean".toList, "MomentumY_Mean".toList,
   "VelocityX_Mean".toList, "VelocityY_Mean".toList, "VelocityX".toList, "VelocityY".toList,
   "WaterSource_Mean".toList, "MomentumXSource_Mean".toList, "MomentumYSource_Mean".toList]

/-- `indexed_output_fields`, `/repo/src/yaml_input.c:1145-1153`: what precedes and follows the index -/
def indexedOutputFields : List (Str × Str) :=
  [("SedimentMassPerUnitArea".toList, []), ("SedimentMassPerUnitArea".toList, "Source".toList),
   ("SedimentMassPerUnitArea".toList, "_Mean".toList),
   ("SedimentMassPerUnitArea".toList, "Source_Mean".toList),
   ("SedimentConcentration".toList, "_Mean".toList), ("SedimentConcentration".toList, [])]

/-- `/repo/src/yaml_input.c:1157-1175,1194`: whether a requested name passes the validation, with `n`
sediment classes (the search for a more specific message at `:1177-1192` does not accept anything). -/
def fieldValid (n : ℕ) (name : Str) : Bool :=
  exactOutputFields.any (fun e => e == name) ||
  indexedOutputFields.any fun p => (List.range n).any fun i => indexedName p.1 i p.2 == name

/-- `/repo/src/yaml_input.c:877-886`: the fields used if none is given -/
def fieldsGiven (fields : List Str) : List Str :=
  if fields.length = 0 then ["Height".toList, "MomentumX".toList, "MomentumY".toList] else fields

/-- `/repo/src/yaml_input.c:1119-1196`: whether the requested fields pass the validation -/
def fieldsValid (n : ℕ) (fields : List Str) : Bool := fields.all (fieldValid n)

/-! ### What is written -/

/-- The vectors from which components are written (`/repo/src/xdmf_output.c:282-295`): the solution `u_global`,
and `petsc_accum` and `petsc_inst` of the three output variables (`soln_output` has no instantaneous
fields). -/
inductive OutVec
  | soln
  | solnMean
  | prim
  | primMean
  | src
  | srcMean
  deriving DecidableEq, Repr

/-- The tracers that matter for the output (`/repo/src/rdysetup.c:1405-1420`): number of sediment classes and of other tracers (salinity,
temperature) -/
structure OutTracers where
  classes : ℕ
  others : ℕ

/-- Component names of a specification (`field_component_names[0]`, `/repo/src/rdysetup.c:1406-1420` and its
siblings): three names, then one for every
sediment class; the names of the remaining components stay empty. -/
def compNames (a b c : Str) (pre post : Str) (classes rest : ℕ) : List Str :=
  [a, b, c] ++ (List.range classes).map (fun i => indexedName pre i post) ++ List.replicate rest []

/-- `/repo/src/rdysetup.c:1406-1482`: the names of the components of each vector. -/
def specNames (t : OutTracers) : OutVec → List Str
  | .soln => compNames "Height".toList "MomentumX".toList "MomentumY".toList
      "SedimentMassPerUnitArea".toList [] t.classes t.others
  | .solnMean => compNames "Height_Mean".toList "MomentumX_Mean".toList "MomentumY_Mean".toList
      "SedimentMassPerUnitArea".toList "_Mean".toList t.classes t.others
  | .primMean => compNames "Height_Mean".toList "VelocityX_Mean".toList "VelocityY_Mean".toList
      "SedimentConcentration".toList "_Mean".toList t.classes t.others
  | .prim => compNames "Height".toList "VelocityX".toList "VelocityY".toList
      "SedimentConcentration".toList [] t.classes t.others
  | .src => compNames "WaterSource".toList "MomentumXSource".toList "MomentumYSource".toList
      "SedimentMassPerUnitArea".toList "Source".toList t.classes 0
  | .srcMean => compNames "WaterSource_Mean".toList "MomentumXSource_Mean".toList
      "MomentumYSource_Mean".toList "SedimentMassPerUnitArea".toList "Source_Mean".toList t.classes 0

/-- `skip_first_component` (`/repo/src/rdysetup.c:1430,1454,1483`; `PETSC_FALSE` for the solution,
`/repo/src/xdmf_output.c:283`) -/
def skipFirst : OutVec → Bool
  | .prim => true
  | .primMean => true
  | _ => false

/-- `/repo/src/xdmf_output.c:78-97`: the loop of `WriteRequestedFields` from component `k` on; the datasets
written, with the number of the component each of them holds. -/
def writeLoop (fields : List Str) (offset : ℕ) : ℕ → List Str → List (Str × ℕ)
  | _, [] => []
  | k, name :: rest =>
    if k < offset then writeLoop fields offset (k + 1) rest
    else if fields.contains name then (name, k) :: writeLoop fields offset (k + 1) rest
    else writeLoop fields offset (k + 1) rest

/-- `/repo/src/xdmf_output.c:28-103` `WriteRequestedFields` -/
def writeRequested (t : OutTracers) (fields : List Str) (v : OutVec) : List (Str × OutVec × ℕ) :=
  if fields.length = 0 then []
  else (writeLoop fields (if skipFirst v then 1 else 0) 0 (specNames t v)).map fun p => (p.1, v, p.2)

/-- `/repo/src/xdmf_output.c:282-295`: the datasets of one output step, in order. -/
def datasets (t : OutTracers) (fields : List Str) : List (Str × OutVec × ℕ) :=
  writeRequested t fields .soln ++
  (writeRequested t fields .solnMean ++ (writeRequested t fields .primMean ++
    writeRequested t fields .prim) ++ (writeRequested t fields .srcMean ++ writeRequested t fields .src))

/-- `/repo/src/xdmf_output.c:108-140` `WriteFieldMetadata`: the names of the attributes in the XMF file. -/
def metadataLoop (fields : List Str) (offset : ℕ) : ℕ → List Str → List Str
  | _, [] => []
  | k, name :: rest =>
    if k < offset then metadataLoop fields offset (k + 1) rest
    else if fields.contains name then name :: metadataLoop fields offset (k + 1) rest
    else metadataLoop fields offset (k + 1) rest

/-- `/repo/src/xdmf_output.c:112-139` for one vector -/
def fieldMetadata (t : OutTracers) (fields : List Str) (v : OutVec) : List Str :=
  if fields.length = 0 then []
  else metadataLoop fields (if skipFirst v then 1 else 0) 0 (specNames t v)

/-- `/repo/src/xdmf_output.c:396-411`: the attributes of the XMF file of one output step. -/
def attributes (t : OutTracers) (fields : List Str) : List Str :=
  fieldMetadata t fields .soln ++
  (fieldMetadata t fields .solnMean ++ (fieldMetadata t fields .primMean ++ fieldMetadata t fields .prim) ++
    (fieldMetadata t fields .srcMean ++ fieldMetadata t fields .src))

/-- `/repo/src/xdmf_output.c:12-23` `AnyFieldRequested`: whether an average (or a staged copy) is computed. -/
def anyRequested (t : OutTracers) (fields : List Str) (v : OutVec) : Bool :=
  ((specNames t v).drop (if skipFirst v then 1 else 0)).any fun name => fields.contains name

/-! ### Primitive variables -/

/-- `/repo/src/swe/swe_petsc.c:787-791`, `/repo/src/tracer/tracer_petsc.c:715-725`: the primitive variables
the source operators of the PETSc backend write for a cell. -/
noncomputable def primPetsc (P : FlowParams) (s : TCons) (d : ℕ) : ℝ :=
  if d = 0 then s.q.h
  else if s.q.h ≥ P.tinyH then
    (if d = 1 then s.q.hu * s.q.h / (s.q.h * s.q.h + P.hAnuga * P.hAnuga)
     else if d = 2 then s.q.hv * s.q.h / (s.q.h * s.q.h + P.hAnuga * P.hAnuga)
     else s.hc (d - 3) / s.q.h)
  else 0

/-- `/repo/src/swe/swe_sources_ceed.h:156-160`, `/repo/src/tracer/tracer_sources_ceed.h:136-144`: the same in
the CEED backend (`>` instead of `>=`). -/
noncomputable def primCeed (P : FlowParams) (s : TCons) (d : ℕ) : ℝ :=
  if d = 0 then s.q.h
  else if s.q.h > P.tinyH then
    (if d = 1 then s.q.hu * s.q.h / (s.q.h * s.q.h + P.hAnuga * P.hAnuga)
     else if d = 2 then s.q.hv * s.q.h / (s.q.h * s.q.h + P.hAnuga * P.hAnuga)
     else s.hc (d - 3) / s.q.h)
  else 0

/-- the settings that select a source operator (`/repo/src/operator.c:360-405`) -/
structure SrcOp where
  /-- CEED is used -/
  ceed : Bool
  /-- `physics.sediment.num_classes > 0` -/
  sediment : Bool
  /-- hydrostatic reconstruction (`/repo/src/operator.c:383-405`) -/
  hr : Bool

/-- Whether the source operator writes the primitive variables: all do
(`/repo/src/swe/swe_petsc.c:704-932`, used with and without reconstruction,
`/repo/src/tracer/tracer_petsc.c:616-737`, and the CEED kernels) except that of sediment with
reconstruction (`/repo/src/tracer/tracer_petsc.c:1070-1148`). -/
def SrcOp.writesPrim (o : SrcOp) : Bool := o.ceed || !(o.sediment && o.hr)

/-- the vector of primitive variables after the right-hand side was evaluated for the states `u` (by owned
cell), `/repo/src/operator.c:656-672` -/
noncomputable def SrcOp.evalPrim (o : SrcOp) (P : FlowParams) (u : ℕ → TCons) (pv : ℕ → ℕ → ℝ) :
    ℕ → ℕ → ℝ :=
  if o.writesPrim then (if o.ceed then fun c => primCeed P (u c) else fun c => primPetsc P (u c)) else pv

/-- The vector of primitive variables when the monitor is called at step `n`. It is created with zeros
(`/repo/src/operator.c:270-271,282`), and step `k` evaluates the right-hand side for the states
`stages k` in turn (forward Euler: for the solution before the step only; the implicit methods are not
modelled). -/
noncomputable def SrcOp.primAt (o : SrcOp) (P : FlowParams) (stages : ℕ → List (ℕ → TCons)) : ℕ → ℕ → ℕ → ℝ
  | 0 => fun _ _ => 0
  | n + 1 => (stages n).foldl (fun pv u => o.evalPrim P u pv) (o.primAt P stages n)

end RDy
