import Verif.Model.CeedSource
import Verif.Model.PetscRhs

/-!
Model of the assembled flux operators of the CEED backend with hydrostatic reconstruction
(`/repo/src/operator_fluxes_hydro_recon_ceed.c:71-257`, `/repo/src/swe/swe_fluxes_hydro_recon_ceed.h:64-151`). What is assumed of libCEED is
written in `CeedOp.lean`; the operators of the boundaries are those of that model. `Ceed.lean` treats one edge after the other instead.

The Q-function has three outputs, the operator four: the function writes the Courant numbers where the operator has registered "flux", and never writes
the third component of this output nor the output "courant_number". What libCEED then finds there is not known; here it is any value (`Unwritten`).
Runs without tracers, first order.
-/

namespace RDy

/-- Values that libCEED finds in outputs which the Q-function did not write: any function of the time step and the inputs, for output `f` and component `k`.
Simplified: not of what was evaluated before. `/repo/src/swe/swe_fluxes_hydro_recon_ceed.h:60-70`,
`/repo/src/operator_fluxes_hydro_recon_ceed.c:93-96`. -/
abbrev Unwritten := ℝ → List (ℕ → ℝ) → ℕ → ℕ → Num

/-- The largest wave speed `amax` of the reconstructed states (0 if both are dry). `/repo/src/swe/swe_fluxes_hydro_recon_ceed.h:109-123`. -/
noncomputable def hrSpeedCeed (P : FlowParams) (L R : Cons) (sn cn : ℝ) : Option ℝ :=
  if L.h > P.tinyH ∨ R.h > P.tinyH then (roeFluxCeed P.g P.tinyH P.hAnuga L R sn cn 0).map Prod.snd else some 0

/-- `amax` as it enters the Courant numbers of an edge; 0 for an edge between two dry cells, whose Courant numbers are 0.
`/repo/src/swe/swe_fluxes_hydro_recon_ceed.h:82-123,139-147`. -/
noncomputable def hrAmaxCeed (P : FlowParams) (zL zR : ℝ) (qL qR : Cons) (sn cn : ℝ) : Option ℝ :=
  if qL.h > P.tinyH ∨ qR.h > P.tinyH then
    (hrStateCeed P zL (max zL zR) qL).bind fun L => (hrStateCeed P zR (max zL zR) qR).bind fun R => hrSpeedCeed P L R sn cn
  else some 0

/-- `/repo/src/swe/swe_fluxes_hydro_recon_ceed.h:64-151` `SWEFlux_HydroRecon` at one element: inputs `geom`, `q_left`, `q_right`; outputs `cell_left`, `cell_right`, then the
registered "flux" (3 components, of which the function writes two: the Courant numbers) and "courant_number" (never written). -/
noncomputable def hrKernel (P : FlowParams) (junk : Unwritten) (dt : ℝ) (l : List (ℕ → ℝ)) : Option (List (ℕ → Num)) :=
  match l with
  | [geom, qL, qR] =>
    some
      [fun k => Num.scale ((hrPairCeed P (geom 4) (geom 5) ⟨qL 0, qL 1, qL 2⟩ ⟨qR 0, qR 1, qR 2⟩ (geom 0) (geom 1)).map
          fun F => F.1.comp k) (geom 2),
       fun k => Num.scale ((hrPairCeed P (geom 4) (geom 5) ⟨qL 0, qL 1, qL 2⟩ ⟨qR 0, qR 1, qR 2⟩ (geom 0) (geom 1)).map
          fun F => F.2.comp k) (geom 3),
       fun k => if k < 2 then
          (hrAmaxCeed P (geom 4) (geom 5) ⟨qL 0, qL 1, qL 2⟩ ⟨qR 0, qR 1, qR 2⟩ (geom 0) (geom 1)).map fun a =>
            if k = 0 then -a * geom 2 * dt else a * geom 3 * dt
         else junk dt l 2 k,
       fun k => junk dt l 3 k]
  | _ => none

/-- The bed elevation of cell `c` as it is computed for each edge: that of the file, or the mean over the vertices. A cell without vertices (division by
zero) is undefined here. `/repo/src/operator_fluxes_hydro_recon_ceed.c:121-145`. -/
noncomputable def cellBed (V : BedTables) (c : ℕ) : Option ℝ :=
  if V.fromFile then V.centroidZ.get c
  else
    (V.offsets.get c).bind fun a => (V.offsets.get (c + 1)).bind fun b =>
    (loopM (zSumStep V a) (b - a) 0).bind fun s => (V.count.get c).bind fun n => if n = 0 then none else some (s / n)

/-- `/repo/src/operator_fluxes_hydro_recon_ceed.c:114-145`: the geometric factors of an internal edge. -/
noncomputable def hrGeomBody (T : CTables) (V : BedTables) (g : Arr ℝ) (i _e id : ℕ) : Option (Arr ℝ) :=
  (T.cellIds.get (2 * id)).bind fun l => (T.cellIds.get (2 * id + 1)).bind fun r =>
  (asIndex l).bind fun l' => (asIndex r).bind fun r' =>
  (T.sn.get id).bind fun s => (T.cn.get id).bind fun c => (T.elen.get id).bind fun len =>
  (T.area.get l').bind fun al => (T.area.get r').bind fun ar =>
  (cellBed V l').bind fun zl => (cellBed V r').bind fun zr =>
    putRow 6 (fun k => if k = 0 then s else if k = 1 then c else if k = 2 then -len / al else if k = 3 then len / ar
      else if k = 4 then zl else zr) g i

/-- The arrays of offsets `q_offset_l`, `q_offset_r`, `c_offset_l`, `c_offset_r`. `/repo/src/operator_fluxes_hydro_recon_ceed.c:164-166`. -/
structure HROffsets where
  ql : Arr (Option ℕ)
  qr : Arr (Option ℕ)
  cl : Arr (Option ℕ)
  cr : Arr (Option ℕ)

/-- `PetscMalloc2(…)`: arrays of `n` entries, none of them set. `/repo/src/operator_fluxes_hydro_recon_ceed.c:165-166`. -/
def HROffsets.malloc (n : ℕ) : HROffsets := ⟨Arr.calloc n none, Arr.calloc n none, Arr.calloc n none, Arr.calloc n none⟩

/-- `/repo/src/operator_fluxes_hydro_recon_ceed.c:170-175`: the offsets of an internal edge (`num_comp` is 3). -/
def hrOffsetBody (T : CTables) (o : HROffsets) (i _e id : ℕ) : Option HROffsets :=
  (T.cellIds.get (2 * id)).bind fun l => (T.cellIds.get (2 * id + 1)).bind fun r =>
  (asIndex l).bind fun l' => (asIndex r).bind fun r' =>
  (o.ql.put i (some (3 * l'))).bind fun ql => (o.qr.put i (some (3 * r'))).bind fun qr =>
  (T.l2o.get l').bind fun lo => (o.cl.put i (some (3 * lo))).bind fun cl =>
  (T.l2o.get r').bind fun ro => (o.cr.put i (some (3 * ro))).map fun cr => ⟨ql, qr, cl, cr⟩

/-- `/repo/src/operator_fluxes_hydro_recon_ceed.c:71-214` `CreateCeedInteriorFluxHydroReconSuboperator` -/
noncomputable def createInteriorHRC (P : FlowParams) (junk : Unwritten) (T : CTables) (V : BedTables) : Option COp :=
  (ownedLoopC T T.internal (hrGeomBody T V) (Arr.calloc (6 * T.numOwnedInternal) 0)).bind fun g =>
  (ownedLoopC T T.internal (hrOffsetBody T) (HROffsets.malloc T.numOwnedInternal)).map fun o =>
    { elems := T.numOwnedInternal
      ins := [⟨.strided 6, 6, some g.1⟩, ⟨.offsets o.1.ql, 3, none⟩, ⟨.offsets o.1.qr, 3, none⟩]
      outs := [⟨.offsets o.1.cl, 3, none⟩, ⟨.offsets o.1.cr, 3, none⟩,
        ⟨.strided 3, 3, some (Arr.calloc (3 * T.numOwnedInternal) (some 0))⟩,
        ⟨.strided 2, 2, some (Arr.calloc (2 * T.numOwnedInternal) (some 0))⟩]
      kernel := hrKernel P junk }

/-- `/repo/src/operator_fluxes_hydro_recon_ceed.c:224-257` `CreateCeedFluxHROperator`: the internal edges, then the boundaries, whose operators take
the elevations of the vertices (`/repo/src/operator_fluxes_ceed.c:688-697`). -/
noncomputable def createFluxHRC (P : FlowParams) (junk : Unwritten) (T : CTables) (V : BedTables) (Bs : List Bnd) : Option (List COp) :=
  (createInteriorHRC P junk T V).bind fun i => (createBoundariesC P T T.vz Bs).map fun r => i :: r

end RDy
