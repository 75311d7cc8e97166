import Verif.Model.CeedOp

/-!
Model of the source operator of the CEED backend as it is assembled and applied
(`/repo/src/operator_sources_ceed.c:111-245`, with hydrostatic reconstruction
`/repo/src/operator_sources_hydro_recon_ceed.c:98-222`; the fields `riemannf`, `primitive_variables` and `sources` are added in
`/repo/src/operator.c:224-334`; application: `/repo/src/operator.c:606-646`). The model of `Ceed.lean` treats one cell after the other
instead.

The libCEED contract is that of `CeedOp.lean`; in addition `CeedOperatorApply` sets the vectors of *all* outputs to 0 and then does
what `CeedOperatorApplyAdd` does. Runs without tracers (3 components).
-/

namespace RDy

/-- What the operator reads of the cells of a process. `/repo/src/operator_sources_ceed.c:121,141-142,153-158,186-191`. -/
structure SCells where
  owned : Arr Bool
  l2o : Arr ℕ
  dzdx : Arr ℝ
  dzdy : Arr ℝ
  numOwned : ℕ

/-- `/repo/src/swe/swe_sources_ceed.h:104-168` `SWESources`, and with `slope = false`
`/repo/src/swe/swe_sources_hydro_recon_ceed.h:31-90`: inputs `geom`, `ext_src`, `mat_props`, `riemannf`, `q`; outputs `cell`,
`primitive_variables`, `sources`. -/
noncomputable def sourceKernel (P : FlowParams) (m : FrictionMethod) (slope : Bool) (dt : ℝ) :
    List (ℕ → ℝ) → Option (List (ℕ → Num))
  | [geom, ext, mat, F, q] =>
    some
      [fun k => (cellRhsCeed P m slope (geom 0) (geom 1) dt (mat 0) ⟨ext 0, ext 1, ext 2⟩ ⟨F 0, F 1, F 2⟩
          ⟨q 0, q 1, q 2⟩).map fun f => f.comp k,
       fun k => (velocitiesCeed P.tinyH P.hAnuga ⟨q 0, q 1, q 2⟩).map fun s =>
          if k = 0 then s.h else if k = 1 then s.u else s.v,
       fun k => some (ext k)]
  | _ => none

/-- One pass of `for (CeedInt c = 0, owned_cell = 0; c < num_local_cells; ++c)`: a cell owned elsewhere is skipped, `owned_cell` counts
the others. `/repo/src/operator_sources_ceed.c:153-158,186-191`. -/
def ownedCellStep {σ : Type} (owned : Arr Bool) (body : σ → ℕ → ℕ → Option σ) (s : σ × ℕ) (c : ℕ) : Option (σ × ℕ) :=
  (owned.get c).bind fun w => if w then (body s.1 s.2 c).map fun r => (r, s.2 + 1) else some s

/-- The loop over the local cells. `/repo/src/operator_sources_ceed.c:153-158,186-191`. -/
def ownedCellLoop {σ : Type} (owned : Arr Bool) (body : σ → ℕ → ℕ → Option σ) (s : σ) : Option σ :=
  (loopM (ownedCellStep owned body) owned.len (s, 0)).map fun r => r.1

/-- The geometric factors of a cell. `/repo/src/operator_sources_ceed.c:155-156`,
`/repo/src/operator_sources_hydro_recon_ceed.c:140-141`. -/
def sGeomBody (S : SCells) (g : Arr ℝ) (i c : ℕ) : Option (Arr ℝ) :=
  (S.dzdx.get c).bind fun x => (S.dzdy.get c).bind fun y => putRow 2 (fun k => if k = 0 then x else y) g i

/-- `offset_q` and `offset_c`. `/repo/src/operator_sources_ceed.c:182-184`. -/
structure SOffsets where
  q : Arr (Option ℕ)
  c : Arr (Option ℕ)

/-- The offsets of a cell. `/repo/src/operator_sources_ceed.c:188-189`, `/repo/src/operator_sources_hydro_recon_ceed.c:172-173`. -/
def sOffsetBody (S : SCells) (o : SOffsets) (i c : ℕ) : Option SOffsets :=
  (o.q.put i (some (c * 3))).bind fun q =>
    (S.l2o.get c).bind fun l => (o.c.put i (some (l * 3))).map fun c' => ⟨q, c'⟩

/-- The operator with its fields. `/repo/src/operator_sources_ceed.c:205-211` and, for `riemannf`, `primitive_variables`, `sources`,
`/repo/src/operator.c:249,286-287,326`. -/
noncomputable def sourceC (P : FlowParams) (m : FrictionMethod) (slope : Bool) (n : ℕ) (g : Arr ℝ) (o : SOffsets)
    (ext mat fd : Arr ℝ) (pv si : Arr Num) : COp where
  elems := n
  ins := [⟨.strided 2, 2, some g⟩, ⟨.strided 3, 3, some ext⟩, ⟨.strided 1, 1, some mat⟩, ⟨.strided 3, 3, some fd⟩,
    ⟨.offsets o.q, 3, none⟩]
  outs := [⟨.offsets o.c, 3, none⟩, ⟨.strided 3, 3, some pv⟩, ⟨.strided 3, 3, some si⟩]
  kernel := sourceKernel P m slope

/-- `/repo/src/operator_sources_ceed.c:111-222` `CreateCeedSourceSuboperator` (`slope`), or
`/repo/src/operator_sources_hydro_recon_ceed.c:98-198` `CreateCeedSourceHydroReconSuboperator`, then
`/repo/src/operator.c:224-334`; all passive vectors but the geometric factors are 0 (`riemannf` has no values before an
evaluation points it at the flux divergences; here 0). -/
noncomputable def createSourceC (P : FlowParams) (m : FrictionMethod) (slope : Bool) (S : SCells) : Option COp :=
  (ownedCellLoop S.owned (sGeomBody S) (Arr.calloc (2 * S.numOwned) 0)).bind fun g =>
    (ownedCellLoop S.owned (sOffsetBody S) ⟨Arr.calloc S.numOwned none, Arr.calloc S.numOwned none⟩).map fun o =>
      sourceC P m slope S.numOwned g o (Arr.calloc (3 * S.numOwned) 0) (Arr.calloc (1 * S.numOwned) 0) (Arr.calloc (3 * S.numOwned) 0)
        (Arr.calloc (3 * S.numOwned) (some 0)) (Arr.calloc (3 * S.numOwned) (some 0))

/-- The vector of input `j` is given other values: the setters of sources and of material properties write through the vector of the
field (`/repo/src/operator.c:1137-1163`, `:1332-1357`), and an evaluation points `riemannf` at the flux divergences
(`/repo/src/operator.c:617-623`). -/
def COp.withIn (op : COp) (j : ℕ) (v : Arr ℝ) : COp :=
  { op with ins := op.ins.modify j fun i => { i with vec := some v } }

/-- The vector of an output set to 0: part of `CeedOperatorApply`, `/repo/src/operator.c:633`. An active output has no vector of its
own. -/
def COut.zero (o : COut) : COut :=
  { o with vec := o.vec.map fun a => Arr.calloc a.len (some 0) }

/-- `CeedOperatorApply` with the vector `n` entries long for the active outputs, `/repo/src/operator.c:633`: whatever the vectors of the outputs
held, they are set to 0 first. -/
noncomputable def COp.applyC (op : COp) (dt : ℝ) (u : Arr ℝ) (n : ℕ) : Option (COp × Arr Num) :=
  ({ op with outs := op.outs.map COut.zero } : COp).applyAdd dt u (Arr.calloc n (some 0))

/-- What one evaluation of the sources is given: the time step (in the context of the Q-function), the solution with ghost cells, the
sources and Manning coefficients set at that time, and the flux divergences. `/repo/src/operator.c:606-646`. -/
structure SCall where
  dt : ℝ
  u : Arr ℝ
  ext : Arr ℝ
  mat : Arr ℝ
  fd : Arr ℝ

/-- `/repo/src/operator.c:606-646`: the part of `ApplyCeedOperator` that evaluates the sources; `n` is the number of owned cells, `f_global`
has `3 n` entries. -/
noncomputable def sourceEvaluationC (n : ℕ) (op : COp) (a : SCall) : Option (COp × Arr Num) :=
  (((op.withIn 1 a.ext).withIn 2 a.mat).withIn 3 a.fd).applyC a.dt a.u (3 * n)

/-- Evaluations one after the other, with what the last one gave. `/repo/src/operator.c:606-646`. -/
noncomputable def sourceEvaluationsC (n : ℕ) : COp → List SCall → Option COp
  | op, [] => some op
  | op, a :: l => (sourceEvaluationC n op a).bind fun r => sourceEvaluationsC n r.1 l

open Classical in
/-- `VecCopy(f_global, op->flux_divergence)`, `/repo/src/operator.c:615-622`. Only vectors without NaN are followed further: otherwise
`none`. -/
noncomputable def realVec (a : Arr Num) : Option (Arr ℝ) :=
  if ∀ i < a.len, (a.val i).isSome then some ⟨a.len, fun i => (a.val i).getD 0⟩ else none

/-- `/repo/src/operator.c:501-646` `ApplyCeedOperator` on a single process, where all local cells are owned (`nc` of them): fluxes, then
sources. `f_local` and `f_global` have the same entries then. -/
noncomputable def applyCeedC (nc : ℕ) (dt : ℝ) (u ext mat : Arr ℝ) (fl : List COp) (src : COp) :
    Option (List COp × COp × Arr Num) :=
  (fluxEvaluationC nc dt u fl).bind fun r =>
    (realVec r.2).bind fun fd =>
      (sourceEvaluationC nc src ⟨dt, u, ext, mat, fd⟩).map fun r' => (r.1, r'.1, r'.2)

/-- `/repo/src/operator.c:592-593`: `VecZeroEntries(f_global)`, `DMLocalToGlobal(…, ADD_VALUES, …)`: component `k` of global cell `γ` collects the
entries of all local cells, of all `np` processes, that stand for it; `gid p c` is the global cell of local cell `c`. -/
noncomputable def localToGlobalC {np : ℕ} (nc : Fin np → ℕ) (gid : Fin np → ℕ → ℕ) (f : Fin np → Arr Num) (γ k : ℕ) : Num :=
  (List.finRange np).foldl (fun (s : Num) (p : Fin np) =>
    (List.range (nc p)).foldl (fun (s : Num) (c : ℕ) => if gid p c = γ then s.add ((f p).val (3 * c + k)) else s) s) (some 0)

end RDy
