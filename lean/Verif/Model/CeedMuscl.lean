import Verif.Model.CeedOp
import Verif.Model.Packed

/-!
Model of the second-order flux operators of the CEED backend as they are assembled and applied on several processes: the operator of the
internal edges, which reads the reconstructed states from the vector `q_reconstructed` (`/repo/src/operator_fluxes_ceed.c:1218-1420`), the
composite operator of the boundaries (`:1435-1470`), the arrays of gradients (`/repo/src/operator.c:161-165`), and one evaluation
(`/repo/src/operator.c:541-587`). The model of `SecondOrder.lean` treats one edge after the other instead; computation, exchange and use of the
gradients are those of `Packed.lean`, which both backends share.

libCEED: see `CeedOp.lean`. Courant numbers of the internal edges are computed with the time step in the context of their own operator.
-/

namespace RDy

/-- One process: its tables, coordinates of vertices and centroids of cells, number of local and owned cells, and boundaries.
`/repo/include/private/rdymeshimpl.h:26-240`. -/
structure MCProc where
  T : CTables
  points : Arr (ℝ × ℝ)
  centroids : Arr (ℝ × ℝ)
  nc : ℕ
  n : ℕ
  Bs : List Bnd

/-- The tables that computation and use of gradients read, `/repo/src/operator_fluxes_ceed.c:884-1206`. -/
def MCProc.G (a : MCProc) : GTables := ⟨a.T.toTables, a.T.vertexIds, a.points, a.centroids⟩

/-- The process as `Packed.lean` has it, `/repo/src/operator_fluxes_ceed.c:884-1206`. -/
def MCProc.pproc (a : MCProc) : PProc := ⟨a.G, a.nc, a.n, a.T.numOwnedInternal⟩

/-- `/repo/src/swe/swe_muscl_fluxes_ceed.h:65-94`: the flux of one edge from the values read, the depths cut off at 0. -/
noncomputable def musclFlux (P : FlowParams) (geom qL qR eb ee : ℕ → ℝ) : Option (Flux × ℝ) :=
  edgeFluxCeed P.g P.tinyH P.hAnuga ⟨max 0 (qL 0), qL 1, qL 2⟩ ⟨max 0 (qR 0), qR 1, qR 2⟩ (geom 0) (geom 1)
    (computeDhv (geom 4) (geom 5) (eb 0) (ee 0))

/-- `/repo/src/swe/swe_muscl_fluxes_ceed.h:43-96` `SWEFlux_MUSCL`: inputs `geom`, `q_left_face`, `q_right_face`, `eta_vert_beg`, `eta_vert_end`;
outputs `cell_L`, `cell_R`, `courant_num`. -/
noncomputable def musclKernel (P : FlowParams) (dt : ℝ) : List (ℕ → ℝ) → Option (List (ℕ → Num))
  | [geom, qL, qR, eb, ee] =>
    some
      [fun k => Num.scale ((musclFlux P geom qL qR eb ee).map fun F => F.1.comp k) (geom 2),
       fun k => Num.scale ((musclFlux P geom qL qR eb ee).map fun F => F.1.comp k) (geom 3),
       fun k => (musclFlux P geom qL qR eb ee).map fun F => if k = 0 then -F.2 * geom 2 * dt else F.2 * geom 3 * dt]
  | _ => none

/-- Two arrays of offsets, allocated together: `PetscMalloc2`. `/repo/src/operator_fluxes_ceed.c:1293-1294`. -/
abbrev OffsetPair := Arr (Option ℕ) × Arr (Option ℕ)

/-- `PetscMalloc2(num_edges, …, num_edges, …)`: no entry is set. `/repo/src/operator_fluxes_ceed.c:1294,1318,1340`. -/
def OffsetPair.malloc (n : ℕ) : OffsetPair := (Arr.calloc n none, Arr.calloc n none)

/-- `/repo/src/operator_fluxes_ceed.c:1295-1298`: where the states on both sides of edge number `ie` (among the owned ones) are in
`q_reconstructed`; `num_comp` is 3. -/
def faceOffsetStep (o : OffsetPair) (ie : ℕ) : Option OffsetPair :=
  (o.1.put ie (some (ie * 2 * 3))).bind fun l => (o.2.put ie (some (ie * 2 * 3 + 3))).map fun r => (l, r)

/-- `/repo/src/operator_fluxes_ceed.c:1319-1327`: the places of the two cells of an edge in the right-hand side. -/
def musclCellBody (T : CTables) (o : OffsetPair) (i _e id : ℕ) : Option OffsetPair :=
  (T.cellIds.get (2 * id)).bind fun l => (T.cellIds.get (2 * id + 1)).bind fun r =>
  (asIndex l).bind fun l' => (asIndex r).bind fun r' =>
  (T.l2o.get l').bind fun lo => (o.1.put i (some (lo * 3))).bind fun cl =>
  (T.l2o.get r').bind fun ro => (o.2.put i (some (ro * 3))).map fun cr => (cl, cr)

/-- `/repo/src/operator_fluxes_ceed.c:1341-1349`: the places of the two vertices of an edge in `eta_vertices`. -/
def musclEtaBody (T : CTables) (o : OffsetPair) (i _e id : ℕ) : Option OffsetPair :=
  (T.vertexIds.get (2 * id)).bind fun vb => (T.vertexIds.get (2 * id + 1)).bind fun ve =>
  (o.1.put i (some (vb * 1))).bind fun eb => (o.2.put i (some (ve * 1))).map fun ee => (eb, ee)

/-- `/repo/src/operator_fluxes_ceed.c:1218-1393` `CreateCeedInteriorFluxSuboperatorReconstructed`; `eta` is the vector of elevations at
vertices. The loop over the geometric factors (`:1265-1280`) does the same as that of first order. The vector `q_reconstructed` (zeros) is an input
twice. -/
noncomputable def createInteriorMC (P : FlowParams) (T : CTables) (eta : Arr ℝ) : Option COp :=
  (ownedLoopC T T.internal (geomBody T) (Arr.calloc (6 * T.numOwnedInternal) 0)).bind fun g =>
  (loopM faceOffsetStep T.numOwnedInternal (OffsetPair.malloc T.numOwnedInternal)).bind fun q =>
  (ownedLoopC T T.internal (musclCellBody T) (OffsetPair.malloc T.numOwnedInternal)).bind fun c =>
  (ownedLoopC T T.internal (musclEtaBody T) (OffsetPair.malloc T.numOwnedInternal)).map fun v =>
    { elems := T.numOwnedInternal
      ins := [⟨.strided 6, 6, some g.1⟩, ⟨.offsets q.1, 3, some (Arr.calloc (T.numOwnedInternal * 2 * 3) 0)⟩,
        ⟨.offsets q.2, 3, some (Arr.calloc (T.numOwnedInternal * 2 * 3) 0)⟩, ⟨.offsets v.1.1, 1, some eta⟩, ⟨.offsets v.1.2, 1, some eta⟩]
      outs := [⟨.offsets c.1.1, 3, none⟩, ⟨.offsets c.1.2, 3, none⟩,
        ⟨.strided 2, 2, some (Arr.calloc (2 * T.numOwnedInternal) (some 0))⟩]
      kernel := musclKernel P }

/-- What a process keeps: `ls_grad_coeffs`, the three arrays of gradients, `q_reconstructed`, `muscl_interior_flux` with the time step in its
context, and the composite operator `flux` of the boundaries. `/repo/include/private/rdyoperatorimpl.h:125-160`, `/repo/src/operator.c:156-165`. -/
structure MusclC where
  coeffs : Arr ℝ
  grad : ℕ → Arr ℝ
  qFace : Arr ℝ
  interior : COp
  dtime : ℝ
  flux : List COp

/-- `/repo/src/operator.c:156-165` with `/repo/src/operator_fluxes_ceed.c:1435-1470` `CreateCeedFluxOperatorReconstructed`. The context of an operator is created
with the time step 0 (`/repo/src/swe/swe_ceed.c:31`). -/
noncomputable def createMusclC (P : FlowParams) (a : MCProc) (eta : Arr ℝ) : Option MusclC :=
  (createInteriorMC P a.T eta).bind fun i => (createBoundariesC P a.T eta a.Bs).bind fun b =>
  (coeffsB a.G a.nc (Arr.calloc (a.T.internal.len * 4) 0)).map fun co =>
    ⟨co, fun _ => Arr.calloc (a.nc * 2) 0, Arr.calloc (a.T.numOwnedInternal * 2 * 3) 0, i, 0, b⟩

/-- The values of `q_reconstructed` become those of the two inputs that refer to this vector. `/repo/src/operator.c:548-553`,
`/repo/src/operator_fluxes_ceed.c:1367-1368`. -/
def COp.withFaces (op : COp) (q : Arr ℝ) : COp :=
  { op with ins := match op.ins with
      | [g, l, r, b, e] => [g, { l with vec := some q }, { r with vec := some q }, b, e]
      | l => l }

/-- `/repo/src/operator.c:548-587` on one process, after the exchange of the gradients, up to `DMLocalToGlobal`: the reconstruction, then the
operator of the internal edges, with the time step that its own context holds, and the boundaries with the time step `dt` of this call
(`/repo/src/operator.c:504-513` updates the contexts of `flux` and `source` only), added to zeros. -/
noncomputable def musclFluxesC (l : Limiter) (a : MCProc) (M : MusclC) (g : ℕ → Arr ℝ) (dt : ℝ) (u : Arr ℝ) : Option (MusclC × Arr Num) :=
  (reconstructB l a.G u g M.qFace).bind fun q =>
  ((M.interior.withFaces q).applyAdd M.dtime u (Arr.calloc (3 * a.nc) (some 0))).bind fun r =>
  (compositeAdd dt u M.flux r.2).map fun b => (⟨M.coeffs, g, q, r.1, M.dtime, b.1⟩, b.2)

/-- `/repo/src/operator.c:541-587` on all processes: what each keeps, and its local vector of flux divergences. -/
noncomputable def evaluationMC {n : ℕ} (l : Limiter) (pr : Fin n → MCProc) (root : Fin n → ℕ → Fin n × ℕ) (M : Fin n → MusclC) (dt : ℝ)
    (u : Fin n → Arr ℝ) : Option (Fin n → MusclC × Arr Num) :=
  (allProcs fun p => gradientsB (pr p).T.toTables (pr p).nc (M p).coeffs (u p) (M p).grad).bind fun g =>
  (exchangeB (fun p => (pr p).pproc) root g).bind fun g' =>
    allProcs fun p => musclFluxesC l (pr p) (M p) (g' p) dt (u p)

/-- Evaluations one after the other, and what the processes keep after them. `/repo/src/operator.c:541-587`. -/
noncomputable def evaluationsMC {n : ℕ} (l : Limiter) (pr : Fin n → MCProc) (root : Fin n → ℕ → Fin n × ℕ) :
    List (ℝ × (Fin n → Arr ℝ)) → (Fin n → MusclC) → Option (Fin n → MusclC)
  | [], M => some M
  | (dt, u) :: rest, M => (evaluationMC l pr root M dt u).bind fun r => evaluationsMC l pr root rest fun p => (r p).1

end RDy
