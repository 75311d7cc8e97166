import Verif.Model.CeedTOp
import Verif.Model.CeedSource

/-!
Model of the source operator of the CEED backend as it is assembled and applied in runs with tracers
(`/repo/src/operator_sources_ceed.c:111-245`, with hydrostatic reconstruction `/repo/src/operator_sources_hydro_recon_ceed.c:98-222`; application:
`/repo/src/operator.c:606-646`), and of the whole right-hand side on one process. The contracts are those of `CeedOp.lean` and `CeedSource.lean`; `num_comp` is
`3 + nt`.
-/

namespace RDy

/-- `/repo/src/tracer/tracer_sources_ceed.h:106-134` for one cell: with `friction` (`TracerSourcesWithSemiImplicitBedFriction`) friction, erosion and deposition are
computed, without (`TracerSourcesWithoutBedFriction`, chosen for `arkimex`, `/repo/src/operator_sources_ceed.c:47-55`) `tbx`, `tby` and the arrays `e` and `d` keep the
value 0. -/
noncomputable def cellTSource (P : FlowParams) (friction slope : Bool) (nt : ℕ) (dzdx dzdy dt mann : ℝ) (src F : ℕ → ℝ) (s : TCons) :
    Option (ℕ → ℝ) :=
  if friction then cellTRhsCeed P slope nt dzdx dzdy dt mann src F s
  else some fun d =>
    if d = 1 then F 1 - (bedTerm P slope dzdx dzdy s.q.h).1 - 0 + src 1
    else if d = 2 then F 2 - (bedTerm P slope dzdx dzdy s.q.h).2 - 0 + src 2
    else if d = 0 ∨ d - 3 < nt then F d + src d
    else F d

/-- `/repo/src/tracer/tracer_sources_ceed.h:136-144`: depth, velocities, concentrations. -/
noncomputable def tracerPrim (P : FlowParams) (s : TCons) (k : ℕ) : Num :=
  if k < 3 then (velocitiesCeed P.tinyH P.hAnuga s.q).map fun p => if k = 0 then p.h else if k = 1 then p.u else p.v
  else safeDiv (s.hc (k - 3)) s.q.h s.q.h P.tinyH

/-- `/repo/src/tracer/tracer_sources_ceed.h:77-149` `TracerSources`, and with `slope = false` `/repo/src/tracer/tracer_sources_hydro_recon_ceed.h:30-99`: inputs
`geom`, `ext_src`, `mat_props`, `riemannf`, `q`; outputs `cell`, `primitive_variables`, `sources`. Undefined if there are more tracers than the arrays `hci`, `e` and `d` have
entries (`/repo/src/tracer/tracer_sources_ceed.h:99-101,113,132-134`, `/repo/src/tracer/tracer_types_ceed.h:24-26`). -/
noncomputable def tracerSourceKernel (P : FlowParams) (friction slope : Bool) (nt : ℕ) (dt : ℝ) :
    List (ℕ → ℝ) → Option (List (ℕ → Num))
  | [geom, ext, mat, F, q] =>
    if nt ≤ maxSedimentClasses then
      some
        [fun k => (cellTSource P friction slope nt (geom 0) (geom 1) dt (mat 0) ext F (tStateOf q)).map fun f => f k,
         fun k => tracerPrim P (tStateOf q) k,
         fun k => some (ext k)]
    else none
  | _ => none

/-- The offsets of a cell with `num_comp = nd`. `/repo/src/operator_sources_ceed.c:188-189`. -/
def tsOffsetBody (nd : ℕ) (S : SCells) (o : SOffsets) (i c : ℕ) : Option SOffsets :=
  (o.q.put i (some (c * nd))).bind fun q =>
    (S.l2o.get c).bind fun l => (o.c.put i (some (l * nd))).map fun c' => ⟨q, c'⟩

/-- The operator with its fields, see `sourceC`. `/repo/src/operator_sources_ceed.c:205-211`, `/repo/src/operator.c:249,286-287,326`. -/
noncomputable def sourceT (P : FlowParams) (friction slope : Bool) (nt n : ℕ) (g : Arr ℝ) (o : SOffsets)
    (ext mat fd : Arr ℝ) (pv si : Arr Num) : COp where
  elems := n
  ins := [⟨.strided 2, 2, some g⟩, ⟨.strided (3 + nt), 3 + nt, some ext⟩, ⟨.strided 1, 1, some mat⟩,
    ⟨.strided (3 + nt), 3 + nt, some fd⟩, ⟨.offsets o.q, 3 + nt, none⟩]
  outs := [⟨.offsets o.c, 3 + nt, none⟩, ⟨.strided (3 + nt), 3 + nt, some pv⟩, ⟨.strided (3 + nt), 3 + nt, some si⟩]
  kernel := tracerSourceKernel P friction slope nt

/-- `/repo/src/operator_sources_ceed.c:111-222` `CreateCeedSourceSuboperator` with tracers (`slope`), or
`/repo/src/operator_sources_hydro_recon_ceed.c:98-198`, then `/repo/src/operator.c:224-334`; see `createSourceC`. -/
noncomputable def createSourceT (P : FlowParams) (friction slope : Bool) (nt : ℕ) (S : SCells) : Option COp :=
  (ownedCellLoop S.owned (sGeomBody S) (Arr.calloc (2 * S.numOwned) 0)).bind fun g =>
    (ownedCellLoop S.owned (tsOffsetBody (3 + nt) S) ⟨Arr.calloc S.numOwned none, Arr.calloc S.numOwned none⟩).map fun o =>
      sourceT P friction slope nt S.numOwned g o (Arr.calloc ((3 + nt) * S.numOwned) 0) (Arr.calloc (1 * S.numOwned) 0)
        (Arr.calloc ((3 + nt) * S.numOwned) 0) (Arr.calloc ((3 + nt) * S.numOwned) (some 0)) (Arr.calloc ((3 + nt) * S.numOwned) (some 0))

/-- `/repo/src/operator.c:606-646`: the part of `ApplyCeedOperator` that evaluates the sources; `n` is the number of owned cells. -/
noncomputable def sourceEvaluationT (nt n : ℕ) (op : COp) (a : SCall) : Option (COp × Arr Num) :=
  (((op.withIn 1 a.ext).withIn 2 a.mat).withIn 3 a.fd).applyC a.dt a.u ((3 + nt) * n)

/-- Evaluations one after the other. `/repo/src/operator.c:606-646`. -/
noncomputable def sourceEvaluationsT (nt n : ℕ) : COp → List SCall → Option COp
  | op, [] => some op
  | op, a :: l => (sourceEvaluationT nt n op a).bind fun r => sourceEvaluationsT nt n r.1 l

/-- `/repo/src/operator.c:501-646` `ApplyCeedOperator` with tracers on a single process, where all local cells are owned (`nc` of them): fluxes, then
sources; see `applyCeedC`. -/
noncomputable def applyCeedT (nt nc : ℕ) (dt : ℝ) (u ext mat : Arr ℝ) (fl : List COp) (src : COp) : Option (List COp × COp × Arr Num) :=
  (fluxEvaluationT nt nc dt u fl).bind fun r =>
    (realVec r.2).bind fun fd =>
      (sourceEvaluationT nt nc src ⟨dt, u, ext, mat, fd⟩).map fun r' => (r.1, r'.1, r'.2)

end RDy
