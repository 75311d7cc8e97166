import Verif.Model.ApiRun

/-!
Model of a run as a caller of the library sees it: calls that give Dirichlet values to the edges of boundaries (`/repo/src/rdydata.c:78-170`), in any order, between
evaluations of the right-hand side (`/repo/src/operator.c:501-672`). The setters of `Data.lean` work on functions; here they write through the vectors that the operators
read (`q_dirichlet` of the CEED operator of a boundary, `/repo/src/operator.c:981-1006`; `boundary_values` of the PETSc operator, `:1018-1033`), and an access
outside a vector is undefined.
-/

namespace RDy

/-- The two loops that copy `m` values per edge, for `numEdges` edges, to the components from `off` on of a vector with `total` components per edge.
`/repo/src/operator.c:998-1002` (CEED), `:1025-1029` (PETSc). -/
def writeBoundary (total off m numEdges : ℕ) (values : Arr ℝ) (a : Arr ℝ) : Option (Arr ℝ) :=
  loopM (fun a c => loopM (fun a e => (values.get (m * e + c)).bind fun x => a.put (total * e + off + c) x) numEdges a) m a

/-- `/repo/src/operator.c:981-1006` `SetCeedOperatorBoundaryData`: `write` is applied to the vector of the field `q_dirichlet` of the operator of boundary `b`. `first` is
the number of parts of the composite operator that come before the boundaries, `pos` is the position of the field among the inputs (4 without tracers, 2 with tracers:
`/repo/src/operator_fluxes_ceed.c:440-450,557-566`). Looking for a field that is not there is an error. -/
def ceedWrite (first pos : ℕ) (ops : List COp) (b : ℕ) (write : Arr ℝ → Option (Arr ℝ)) : Res (List COp) :=
  match ops[first + b]? with
  | none => .ub
  | some op =>
    match op.ins[pos]? with
    | none => .error
    | some i =>
      match i.vec with
      | none => .ub
      | some a =>
        match write a with
        | none => .ub
        | some a' => .ok (ops.set (first + b) (op.withIn pos a'))

/-- `/repo/src/operator.c:1018-1033` `SetPetscOperatorBoundaryData` with flow only: the vector `boundary_values` belongs to the boundary whatever its type
(`/repo/src/operator.c:117-129`). -/
def petscWrite {σ : Type} (s : σ × List Bnd) (b : ℕ) (write : Arr ℝ → Option (Arr ℝ)) : Res (σ × List Bnd) :=
  match s.2[b]? with
  | none => .ub
  | some B =>
    match write B.values with
    | none => .ub
    | some a => .ok (s.1, s.2.set b { B with values := a })

/-- `/repo/src/operator.c:1018-1033` `SetPetscOperatorBoundaryData` with tracers. -/
def petscTWrite {σ : Type} (s : σ × List TBnd) (b : ℕ) (write : Arr ℝ → Option (Arr ℝ)) : Res (σ × List TBnd) :=
  match s.2[b]? with
  | none => .ub
  | some B =>
    match write B.values with
    | none => .ub
    | some a => .ok (s.1, s.2.set b { B with values := a })

/-- A call of the library: `RDySetFlowDirichletBoundaryValues`, `RDySetSedimentDirichletBoundaryValues`, `RDySetSalinityDirichletBoundaryValues`,
`RDySetTemperatureDirichletBoundaryValues` (`/repo/src/rdydata.c:89-170`) with a boundary, a number of edges, a number of values per edge, and the values; or an evaluation by the
time stepper (`/repo/src/rdysetup.c:1120-1142`) with the step and the solution with ghost cells. -/
inductive BndCall
  | flow (b : ℤ) (numEdges ndof : ℕ) (values : Arr ℝ)
  | sediment (b : ℤ) (numEdges numClasses : ℕ) (values : Arr ℝ)
  | salinity (b : ℤ) (numEdges : ℕ) (values : Arr ℝ)
  | temperature (b : ℤ) (numEdges : ℕ) (values : Arr ℝ)
  | evaluate (dt : ℝ) (u : Arr ℝ)

/-- What is kept between calls (the operators, with the vectors of boundary values), and the results of the evaluations so far, the last one first.
`/repo/include/private/rdyoperatorimpl.h:107-206`. -/
structure BndState (σ : Type) where
  mem : σ
  out : List (Arr Num)

/-- `/repo/src/rdydata.c:78-86` `CheckBoundaryParameters` (with `:24-33`), the check of the type of condition (`:100-104` and siblings; a null pointer is followed if
there is no condition), then `SetOperatorBoundaryValues` (`/repo/src/operator.c:1045-1061`). -/
def setBnd {σ : Type} (p : Phys) (infos : List BndInfo) (wr : σ → ℕ → (Arr ℝ → Option (Arr ℝ)) → Res σ) (kind : BndInfo → Option CondType)
    (off m : ℕ) (b : ℤ) (numEdges : ℕ) (values : Arr ℝ) (s : BndState σ) : Res (BndState σ) :=
  if (infos.length : ℤ) ≤ b then .error
  else if b < 0 then .error
  else
    match infos[b.toNat]? with
    | none => .ub
    | some i =>
      if i.numEdges ≠ numEdges then .error
      else
        match kind i with
        | none => .ub
        | some t =>
          if t ≠ .dirichlet then .error
          else
            match wr s.mem b.toNat (writeBoundary p.total off m numEdges values) with
            | .ok s' => .ok { s with mem := s' }
            | .error => .error
            | .ub => .ub

/-- One call, `/repo/src/rdydata.c:89-170`, `/repo/src/operator.c:501-672`. `wr` writes to the vector of a boundary, `ev` evaluates. Simplified: the check of `ndof` comes
before that of the boundary (both are errors). -/
def bndStep {σ : Type} (p : Phys) (infos : List BndInfo) (wr : σ → ℕ → (Arr ℝ → Option (Arr ℝ)) → Res σ) (ev : σ → ℝ → Arr ℝ → Option (σ × Arr Num))
    (s : BndState σ) : BndCall → Res (BndState σ)
  | .flow b ne ndof v => if ndof ≠ 3 then .error else setBnd p infos wr (fun i => some i.flow) 0 ndof b ne v s
  | .sediment b ne m v => if m ≠ p.numClasses then .error else setBnd p infos wr BndInfo.sediment 3 m b ne v s
  | .salinity b ne v => if p.salinityOn = false then .error else setBnd p infos wr BndInfo.salinity (3 + p.numClasses) 1 b ne v s
  | .temperature b ne v =>
    if p.heatOn = false then .error
    else setBnd p infos wr BndInfo.temperature (3 + p.numClasses + if p.salinityOn then 1 else 0) 1 b ne v s
  | .evaluate dt u =>
    match ev s.mem dt u with
    | some r => .ok ⟨r.1, r.2 :: s.out⟩
    | none => .ub

/-- A sequence of calls; the first error ends it (`PetscCall`). `/repo/src/rdydata.c:89-170`. -/
def bndRun {σ : Type} (p : Phys) (infos : List BndInfo) (wr : σ → ℕ → (Arr ℝ → Option (Arr ℝ)) → Res σ) (ev : σ → ℝ → Arr ℝ → Option (σ × Arr Num)) :
    List BndCall → BndState σ → Res (BndState σ)
  | [], s => .ok s
  | a :: l, s =>
    match bndStep p infos wr ev s a with
    | .ok s' => bndRun p infos wr ev l s'
    | .error => .error
    | .ub => .ub

/-- The boundaries as they are created: all values 0 (`/repo/src/operator.c:117-129`, `/repo/src/operator_fluxes_ceed.c:552-553`). -/
def Bnd.fresh (B : Bnd) : Bnd := { B with values := Arr.calloc (3 * B.ids.len) 0 }

/-- The boundaries as they are created, with `nt` tracers. `/repo/src/operator.c:117-129`, `/repo/src/operator_fluxes_ceed.c:552-553`. -/
def TBnd.fresh (nt : ℕ) (B : TBnd) : TBnd := { B with values := Arr.calloc ((3 + nt) * B.ids.len) 0 }

/-- The evaluations of flux divergences with the CEED backend, flow only, first order. `/repo/src/operator.c:561-604`. -/
noncomputable def ceedBndEval (nc : ℕ) (ops : List COp) (dt : ℝ) (u : Arr ℝ) : Option (List COp × Arr Num) := fluxEvaluationC nc dt u ops

/-- The evaluations of flux divergences with the CEED backend with sediment. `/repo/src/operator.c:561-604`. -/
noncomputable def ceedTBndEval (nt nc : ℕ) (ops : List COp) (dt : ℝ) (u : Arr ℝ) : Option (List COp × Arr Num) := fluxEvaluationT nt nc dt u ops

/-- The evaluations of the right-hand side with the PETSc backend, flow only, with the sources `src` and the roughness `mat`, which do
not change here (they do in `ApiRun.lean`). `/repo/src/operator.c:656-672`. -/
noncomputable def petscBndEval (P : FlowParams) (C : PetscCfg) (T : Tables) (V : BedTables) (nc n : ℕ) (src mat : Arr ℝ) (s : (PetscMem × PetscVecs) × List Bnd) (dt : ℝ)
    (u : Arr ℝ) : Option (((PetscMem × PetscVecs) × List Bnd) × Arr Num) :=
  (applyPetsc P C T V s.2 nc n dt s.1.1 { s.1.2 with src := src, mat := mat } u).map fun r => (((r.1, r.2.1), s.2), r.2.2)

/-- The evaluations of flux divergences with the PETSc backend with sediment. `/repo/src/operator.c:656-664`. -/
noncomputable def petscTBndEval (sv : TSolver) (P : FlowParams) (nt : ℕ) (T : Tables) (n : ℕ) (s : TFluxMem × List TBnd) (_dt : ℝ) (u : Arr ℝ) :
    Option ((TFluxMem × List TBnd) × Arr Num) :=
  (tracerFluxesB sv P nt T s.2 n s.1 u).map fun r => ((r.1, s.2), r.2)

end RDy
