import Verif.Model.CeedOp
import Verif.Model.CeedTracer

/-!
Model of the flux operators of the CEED backend as they are assembled in runs with sediment (and possibly further tracers): element
restrictions with `num_comp = 3 + num_tracers` components, the fields in the order in which the Q-functions of
`/repo/src/tracer/tracer_fluxes_ceed.h` take them, and their application (`/repo/src/operator.c:561-604`). First order, without hydrostatic
reconstruction, at least one sediment class (`config.physics.sediment.num_classes > 0`): without sediment but with salinity or heat the inputs are in an order that the
Q-functions do not expect (see `CeedFields.lean`).

What is assumed of libCEED is in `CeedOp.lean`. The arrays into which a Q-function writes its results are not initialised; what an array holds that the Q-function
does not write is given by the parameter `mem`.
-/

namespace RDy

/-- `MAX_NUM_SEDIMENT_CLASSES`, the length of the array `hci` of a `TracerState`. `/repo/CMakeLists.txt:12`,
`/repo/src/tracer/tracer_types_ceed.h:25-28`. -/
def maxSedimentClasses : ℕ := 5

/-- `/repo/src/tracer/tracer_fluxes_ceed.h:44-49`: a `TracerState` from the components at one element. -/
def tStateOf (x : ℕ → ℝ) : TCons := ⟨⟨x 0, x 1, x 2⟩, fun j => x (3 + j)⟩

open Classical in
/-- The largest wave speed that `/repo/src/tracer/tracer_roe_flux_ceed.h:31-33,104-105` (`:124-126,168-169`) computes, 0 for a dry edge
(`/repo/src/tracer/tracer_fluxes_ceed.h:73-74`); `none` as for the fluxes, also if only a concentration is NaN (a simplification). -/
noncomputable def tracerAmaxCeed (g tinyH : ℝ) (qL qR : TCons) (sn cn : ℝ) : Num :=
  if qL.q.h > tinyH ∨ qR.q.h > tinyH then
    (tracerVelocitiesCeed tinyH qL qR).bind fun s =>
      if RoeDefined s.1.p.h s.2.p.h then some (roeEigCeed g s.1.p s.2.p sn cn).amax else none
  else some 0

/-- `/repo/src/tracer/tracer_fluxes_ceed.h:25-77` `TracerFlux`: inputs `geom`, `q_L`, `q_R`; outputs `cell_L`, `cell_R`, `accum_flux`, `courant_num`. Undefined if there
are more tracers than the array `hci` has entries (`:46-49`; the members `s` and `T` follow it in memory, but C does not define such an access). -/
noncomputable def tracerKernel (sv : TSolver) (P : FlowParams) (nt : ℕ) (dt : ℝ) : List (ℕ → ℝ) → Option (List (ℕ → Num))
  | [geom, qL, qR] =>
    if nt ≤ maxSedimentClasses then
      some
        [fun k => Num.scale ((tracerFluxCeed sv P.g P.tinyH nt (tStateOf qL) (tStateOf qR) (geom 0) (geom 1)).map fun F => F k) (geom 2),
         fun k => Num.scale ((tracerFluxCeed sv P.g P.tinyH nt (tStateOf qL) (tStateOf qR) (geom 0) (geom 1)).map fun F => F k) (geom 3),
         fun k => (tracerFluxCeed sv P.g P.tinyH nt (tStateOf qL) (tStateOf qR) (geom 0) (geom 1)).map fun F => F k,
         fun k => (tracerAmaxCeed P.g P.tinyH (tStateOf qL) (tStateOf qR) (geom 0) (geom 1)).map fun a =>
           if k = 0 then -a * geom 2 * dt else a * geom 3 * dt]
    else none
  | _ => none

/-- What a Q-function finds in the array of an output that it does not write, at an element with given inputs.
`/repo/src/tracer/tracer_fluxes_ceed.h:151-203`. -/
abbrev Mem := ℝ → List (ℕ → ℝ) → ℕ → Num

/-- `/repo/src/tracer/tracer_fluxes_ceed.h:88-139` `TracerBoundaryFlux_Dirichlet` (inputs `geom`, `q_L`, `q_R`; outputs `cell_L`, `accum_flux`, `courant_num`; if both
sides are dry it writes `courant_num[1]` (`:135`), which does not exist: undefined) and `:151-203` `TracerBoundaryFlux_Reflecting` (inputs
`geom`, `q_L`; it writes the first and the third output only). -/
noncomputable def tracerBKernel (sv : TSolver) (P : FlowParams) (nt : ℕ) (mem : Mem) (t : TBType) (dt : ℝ) (l : List (ℕ → ℝ)) :
    Option (List (ℕ → Num)) :=
  match t, l with
  | .dirichlet, [geom, qL, qR] =>
    if nt ≤ maxSedimentClasses ∧ (qL 0 > P.tinyH ∨ qR 0 > P.tinyH) then
      some
        [fun k => Num.scale ((boundaryTFluxCeed sv P nt (.dirichlet (tStateOf qR)) (tStateOf qL) (geom 0) (geom 1)).map fun F => F k) (geom 2),
         fun k => (boundaryTFluxCeed sv P nt (.dirichlet (tStateOf qR)) (tStateOf qL) (geom 0) (geom 1)).map fun F => F k,
         fun _ => (tracerAmaxCeed P.g P.tinyH (tStateOf qL) (tStateOf qR) (geom 0) (geom 1)).map fun a => -a * geom 2 * dt]
    else none
  | .reflecting, [geom, qL] =>
    if nt ≤ maxSedimentClasses then
      some
        [fun k => Num.scale ((boundaryTFluxCeed sv P nt .reflecting (tStateOf qL) (geom 0) (geom 1)).map fun F => F k) (geom 2),
         mem dt [geom, qL],
         fun _ => (tracerAmaxCeed P.g P.tinyH (tStateOf qL) (reflectTCeed (tStateOf qL) (geom 0) (geom 1)) (geom 0) (geom 1)).map fun a =>
           -a * geom 2 * dt]
    else none
  | _, _ => none

/-- `/repo/src/operator_fluxes_ceed.c:218-228`: the offsets of an internal edge, with `num_comp = nd`. -/
def tOffsetBody (nd : ℕ) (T : CTables) (o : Offsets) (i _e id : ℕ) : Option Offsets :=
  (T.cellIds.get (2 * id)).bind fun l => (T.cellIds.get (2 * id + 1)).bind fun r =>
  (asIndex l).bind fun l' => (asIndex r).bind fun r' =>
  (o.ql.put i (some (nd * l'))).bind fun ql => (o.qr.put i (some (nd * r'))).bind fun qr =>
  (T.l2o.get l').bind fun lo => (o.cl.put i (some (nd * lo))).bind fun cl =>
  (T.l2o.get r').bind fun ro => (o.cr.put i (some (nd * ro))).bind fun cr =>
  (T.vertexIds.get (2 * id)).bind fun vb => (T.vertexIds.get (2 * id + 1)).bind fun ve =>
  (o.eb.put i (some (1 * vb))).bind fun eb => (o.ee.put i (some (1 * ve))).map fun ee => ⟨ql, qr, cl, cr, eb, ee⟩

/-- `/repo/src/operator_fluxes_ceed.c:129-285` `CreateCeedInteriorFluxSuboperator` with sediment: the elevations at vertices are no inputs
(`:157-160,262-265`). -/
noncomputable def createInteriorT (sv : TSolver) (P : FlowParams) (nt : ℕ) (T : CTables) : Option COp :=
  (ownedLoopC T T.internal (geomBody T) (Arr.calloc (6 * T.numOwnedInternal) 0)).bind fun g =>
  (ownedLoopC T T.internal (tOffsetBody (3 + nt) T) (Offsets.malloc T.numOwnedInternal)).map fun o =>
    { elems := T.numOwnedInternal
      ins := [⟨.strided 6, 6, some g.1⟩, ⟨.offsets o.1.ql, 3 + nt, none⟩, ⟨.offsets o.1.qr, 3 + nt, none⟩]
      outs := [⟨.offsets o.1.cl, 3 + nt, none⟩, ⟨.offsets o.1.cr, 3 + nt, none⟩,
        ⟨.strided (3 + nt), 3 + nt, some (Arr.calloc ((3 + nt) * T.numOwnedInternal) (some 0))⟩,
        ⟨.strided 2, 2, some (Arr.calloc (2 * T.numOwnedInternal) (some 0))⟩]
      kernel := tracerKernel sv P nt }

/-- `/repo/src/operator_fluxes_ceed.c:514-530`: the offsets of a boundary edge, with `num_comp = nd`; see `bOffsetBody`. -/
def tbOffsetBody (nd : ℕ) (T : CTables) (o : Offsets) (i e id : ℕ) : Option Offsets :=
  (T.cellIds.get (2 * id)).bind fun l => (asIndex l).bind fun l' =>
  (o.ql.put i (some (nd * l'))).bind fun ql =>
  (T.l2o.get l').bind fun lo => (o.cl.put i (some (nd * lo))).bind fun cl =>
  (o.qr.put i (some (nd * e))).bind fun qr =>
  (T.vertexIds.get (2 * id)).bind fun vb => (T.vertexIds.get (2 * id + 1)).bind fun ve =>
  (o.eb.put i (some (1 * vb))).bind fun eb => (o.ee.put i (some (1 * ve))).map fun ee => ⟨ql, qr, cl, o.cr, eb, ee⟩

/-- The inputs of the operator of a boundary with sediment, `/repo/src/operator_fluxes_ceed.c:440-450,557-566`. -/
def tbInputs (nt : ℕ) (B : TBnd) (g : Arr ℝ) (o : Offsets) : List CIn :=
  match B.type with
  | .dirichlet => [⟨.strided 5, 5, some g⟩, ⟨.offsets o.ql, 3 + nt, none⟩, ⟨.offsets o.qr, 3 + nt, some B.values⟩]
  | .reflecting => [⟨.strided 5, 5, some g⟩, ⟨.offsets o.ql, 3 + nt, none⟩]

/-- `/repo/src/operator_fluxes_ceed.c:415-590` `CreateCeedBoundaryFluxSuboperator` with sediment. The vector of Dirichlet values is
`B.values` from the beginning, as in `createBoundaryC`. -/
noncomputable def createBoundaryT (sv : TSolver) (P : FlowParams) (nt : ℕ) (mem : Mem) (T : CTables) (B : TBnd) : Option COp :=
  (countOwned T B.ids).bind fun n =>
  (ownedLoopC T B.ids (bGeomBody T) (Arr.calloc (5 * B.ids.len) 0)).bind fun g =>
  (ownedLoopC T B.ids (tbOffsetBody (3 + nt) T) (Offsets.malloc B.ids.len)).map fun o =>
    { elems := n
      ins := tbInputs nt B g.1 o.1
      outs := [⟨.offsets o.1.cl, 3 + nt, none⟩, ⟨.strided (3 + nt), 3 + nt, some (Arr.calloc ((3 + nt) * B.ids.len) (some 0))⟩,
        ⟨.strided 1, 1, some (Arr.calloc (1 * B.ids.len) (some 0))⟩]
      kernel := tracerBKernel sv P nt mem B.type }

/-- The operators of the boundaries, in order. `/repo/src/operator_fluxes_ceed.c:625-640`. -/
noncomputable def createBoundariesT (sv : TSolver) (P : FlowParams) (nt : ℕ) (mem : Mem) (T : CTables) : List TBnd → Option (List COp)
  | [] => some []
  | B :: l => (createBoundaryT sv P nt mem T B).bind fun op => (createBoundariesT sv P nt mem T l).map fun r => op :: r

/-- `/repo/src/operator_fluxes_ceed.c:592-645` `CreateCeedFluxOperator` with sediment: the internal edges, then the boundaries. -/
noncomputable def createFluxT (sv : TSolver) (P : FlowParams) (nt : ℕ) (mem : Mem) (T : CTables) (Bs : List TBnd) : Option (List COp) :=
  (createInteriorT sv P nt T).bind fun i => (createBoundariesT sv P nt mem T Bs).map fun r => i :: r

/-- `/repo/src/operator.c:561-604`: one evaluation of the flux divergences, into a vector of zeros. -/
noncomputable def fluxEvaluationT (nt numCells : ℕ) (dt : ℝ) (u : Arr ℝ) (ops : List COp) : Option (List COp × Arr Num) :=
  compositeAdd dt u ops (Arr.calloc ((3 + nt) * numCells) (some 0))

/-- Evaluations one after the other, and what the operators hold after them. `/repo/src/operator.c:561-604`. -/
noncomputable def fluxEvaluationsT (nt numCells : ℕ) : List (ℝ × Arr ℝ) → List COp → Option (List COp)
  | [], ops => some ops
  | (dt, u) :: l, ops => (fluxEvaluationT nt numCells dt u ops).bind fun r => fluxEvaluationsT nt numCells l r.1

end RDy
