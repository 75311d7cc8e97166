import Verif.Model.PetscRhs
import Verif.Model.TracerHR

/-!
Model of the right-hand side of the PETSc backend with sediment as it is assembled: the interior operator with hydrostatic reconstruction with its arrays
(`/repo/src/tracer/tracer_petsc.c:788-1051`), the source operators with their arrays (`:592-786`, `:1053-1195`), the choice of the operators
(`/repo/src/operator_fluxes_petsc.c:17-95`, `/repo/src/operator_sources_petsc.c:13-45`), and the evaluation (`/repo/src/operator.c:656-672`). The fluxes without reconstruction
and those of boundaries are in `Batched.lean`.

As there, an access outside an array is undefined (`none`), and an entry of an array of results is a `Num` (`none` is NaN). Courant numbers are left out (`Courant.lean`).
-/

namespace RDy

/-! ### The interior operator with hydrostatic reconstruction -/

/-- `/repo/src/tracer/tracer_petsc.c:851-895`: the reconstructed state of cell `c`, whose bed is at `z`, becomes that of edge `e` of one side; `zmax` is the higher of the two
beds. (Two loops over the tracers here, one there; the arrays are different ones.) -/
noncomputable def tPutHR (P : FlowParams) (nt : ℕ) (a : TSide) (e : ℕ) (u : Arr ℝ) (c : ℕ) (z zmax : ℝ) : Option TSide :=
  (u.get ((3 + nt) * c + 0)).bind fun h => (u.get ((3 + nt) * c + 1)).bind fun hu => (u.get ((3 + nt) * c + 2)).bind fun hv =>
  (a.st.get e).bind fun s =>
  (a.st.put e { s with
      h := max 0 (h + z - zmax)
      u := if h > P.tinyH then hu * h / (h * h + P.hAnuga * P.hAnuga) else 0
      v := if h > P.tinyH then hv * h / (h * h + P.hAnuga * P.hAnuga) else 0 }).bind fun st =>
  (loopM (fun (x : Arr ℝ) (j : ℕ) => (u.get ((3 + nt) * c + 3 + j)).bind fun hc =>
    x.put (e * nt + j) (max 0 (h + z - zmax) * (if h > P.tinyH then hc / h else 0))) nt a.hci).bind fun hci =>
  (loopM (fun (x : Arr ℝ) (j : ℕ) => (u.get ((3 + nt) * c + 3 + j)).bind fun hc =>
    x.put (e * nt + j) (if h > P.tinyH then hc / h else 0)) nt a.ci).map fun ci => ⟨st, hci, ci⟩

/-- `/repo/src/tracer/tracer_petsc.c:844-896`: one edge of the loop that reconstructs the states. -/
noncomputable def hrTGatherStep (P : FlowParams) (nt : ℕ) (T : Tables) (zc u : Arr ℝ) (b : TBatch) (e : ℕ) : Option TBatch :=
  (T.internal.get e).bind fun id =>
  (T.cellIds.get (2 * id)).bind fun l =>
  (T.cellIds.get (2 * id + 1)).bind fun r =>
    if r = -1 then some b
    else
      (asIndex l).bind fun l' => (asIndex r).bind fun r' =>
      (zc.get l').bind fun zl => (zc.get r').bind fun zr =>
      (tPutHR P nt b.left e u l' zl (max zl zr)).bind fun L => (tPutHR P nt b.right e u r' zr (max zl zr)).bind fun R =>
        some { b with left := L, right := R }

/-- `/repo/src/tracer/tracer_petsc.c:968-977`: the pressure correction of one cell, if it is owned; momentum only. -/
def addCorrectionT (nt : ℕ) (T : Tables) (c : ℕ) (corr sn cn s : ℝ) (f : Arr Num) : Option (Arr Num) :=
  (T.owned.get c).bind fun w =>
    if w then (T.l2o.get c).bind fun o =>
      (incr f ((3 + nt) * o + 1) (some (corr * cn * s))).bind fun f1 => incr f1 ((3 + nt) * o + 2) (some (corr * sn * s))
    else some f

/-- `/repo/src/tracer/tracer_petsc.c:921-977`: what a wet edge adds to its cells; `hl`, `hr` are the depths of its cells. -/
noncomputable def hrTAddWet (P : FlowParams) (nt : ℕ) (T : Tables) (b : TBatch) (e id l r : ℕ) (hl hr zl zr : ℝ) (f : Arr Num) :
    Option (Arr Num) :=
  (T.elen.get id).bind fun len => (T.area.get l).bind fun al => (T.area.get r).bind fun ar =>
  (b.cn.get e).bind fun cn => (b.sn.get e).bind fun sn =>
  (if max 0 (hl + zl - max zl zr) > P.tinyH ∨ max 0 (hr + zr - max zl zr) > P.tinyH then addToCells (3 + nt) T b.flux e id l r f
    else some f).bind fun f1 =>
  (addCorrectionT nt T l (0.5 * P.g * (hl * hl - max 0 (hl + zl - max zl zr) * max 0 (hl + zl - max zl zr))) sn cn (-len / al) f1).bind fun f2 =>
  addCorrectionT nt T r (0.5 * P.g * (hr * hr - max 0 (hr + zr - max zl zr) * max 0 (hr + zr - max zl zr))) sn cn (len / ar) f2

/-- `/repo/src/tracer/tracer_petsc.c:911-979`: one edge of the loop that adds fluxes and corrections. -/
noncomputable def hrTAddStep (P : FlowParams) (nt : ℕ) (T : Tables) (zc u : Arr ℝ) (b : TBatch) (f : Arr Num) (e : ℕ) : Option (Arr Num) :=
  (T.internal.get e).bind fun id =>
  (T.cellIds.get (2 * id)).bind fun l =>
  (T.cellIds.get (2 * id + 1)).bind fun r =>
    if r = -1 then some f
    else
      (asIndex l).bind fun l' => (asIndex r).bind fun r' =>
      (u.get ((3 + nt) * l' + 0)).bind fun hl => (u.get ((3 + nt) * r' + 0)).bind fun hr =>
        if hr < P.tinyH ∧ hl < P.tinyH then some f
        else (zc.get l').bind fun zl => (zc.get r').bind fun zr => hrTAddWet P nt T b e id l' r' hl hr zl zr f

/-- `/repo/src/tracer/tracer_petsc.c:806-985` `ApplyTracerInteriorFluxHR` for a vector of block size `3 + nt` (checked at `:836-838`). -/
noncomputable def applyTracerInteriorHRB (sv : TSolver) (P : FlowParams) (nt : ℕ) (T : Tables) (zc : Arr ℝ) (b : TBatch) (u : Arr ℝ)
    (f : Arr Num) : Option (TBatch × Arr Num) :=
  (loopM (hrTGatherStep P nt T zc u) T.internal.len b).bind fun b1 =>
  (tRoeB sv P.g nt b1.left b1.right b1.sn b1.cn b1.flux).bind fun F =>
  (loopM (hrTAddStep P nt T zc u { b1 with flux := F }) T.internal.len f).map fun f' => ({ b1 with flux := F }, f')

/-! ### The source operators -/

/-- `/repo/src/tracer/tracer_petsc.c:700-707` (and `:1133-1140`): one sediment class of a wet cell. -/
noncomputable def tSedimentStep (P : FlowParams) (nt : ℕ) (src u : Arr ℝ) (n : ℝ) (c o : ℕ) (q : Cons) (f : Arr Num) (j : ℕ) : Option (Arr Num) :=
  (u.get ((3 + nt) * c + 3 + j)).bind fun hc => (src.get ((3 + nt) * o + 3 + j)).bind fun x =>
    incr f ((3 + nt) * o + 3 + j) (some (erosionDeposition P.g n q hc + x))

/-- `/repo/src/tracer/tracer_petsc.c:682-708` (and `:1117-1141`): the friction of cell `c`, with owned number `o`, and the sediment classes; nothing is read or added if the cell is
dry. Manning's coefficient is read at the *local* number of the cell. -/
noncomputable def tWetB (P : FlowParams) (nt : ℕ) (dt : ℝ) (src mat u : Arr ℝ) (c o : ℕ) (q : Cons) (fx fy : Num) (b : ℝ × ℝ) (f : Arr Num) :
    Option (Option (ℝ × ℝ) × Arr Num) :=
  if q.h ≥ P.tinyH then
    (mat.get c).bind fun n =>
      (loopM (tSedimentStep P nt src u n c o q) nt f).map fun f' => (frictionB P .semiImplicit dt n q fx fy b.1 b.2, f')
  else some (some (0, 0), f)

/-- `/repo/src/tracer/tracer_petsc.c:711-713` (and `:1143-1145`): the sources of the flow are added; `b` is the bed-slope term, `t` the friction term. -/
def addFlowSourceT (nt : ℕ) (src : Arr ℝ) (o : ℕ) (b : ℝ × ℝ) (t : Option (ℝ × ℝ)) (f : Arr Num) : Option (Arr Num) :=
  (src.get ((3 + nt) * o + 0)).bind fun s0 => (src.get ((3 + nt) * o + 1)).bind fun s1 => (src.get ((3 + nt) * o + 2)).bind fun s2 =>
  (incr f ((3 + nt) * o + 0) (some s0)).bind fun f1 =>
  (incr f1 ((3 + nt) * o + 1) (t.map fun t => -b.1 - t.1 + s1)).bind fun f2 =>
  incr f2 ((3 + nt) * o + 2) (t.map fun t => -b.2 - t.2 + s2)

/-- `/repo/src/tracer/tracer_petsc.c:715-724`: the primitive variables of a cell: depth, velocities, concentrations. -/
noncomputable def tPutPrim (P : FlowParams) (nt : ℕ) (u pv : Arr ℝ) (c o : ℕ) (q : Cons) : Option (Arr ℝ) :=
  (pv.put ((3 + nt) * o + 0) q.h).bind fun p1 =>
  (p1.put ((3 + nt) * o + 1) (if q.h ≥ P.tinyH then q.hu * q.h / (q.h * q.h + P.hAnuga * P.hAnuga) else 0)).bind fun p2 =>
  (p2.put ((3 + nt) * o + 2) (if q.h ≥ P.tinyH then q.hv * q.h / (q.h * q.h + P.hAnuga * P.hAnuga) else 0)).bind fun p3 =>
  loopM (fun (p : Arr ℝ) (j : ℕ) => (u.get ((3 + nt) * c + 3 + j)).bind fun hc =>
    p.put ((3 + nt) * o + 3 + j) (if q.h ≥ P.tinyH then hc / q.h else 0)) nt p3

/-- `/repo/src/tracer/tracer_petsc.c:664-726` (`slope`) and `:1102-1146` (hydrostatic reconstruction: no bed slope, and no primitive variables): one cell. -/
noncomputable def tSourceStepB (P : FlowParams) (slope : Bool) (nt : ℕ) (T : Tables) (V : BedTables) (dt : ℝ) (src mat : Arr ℝ) (fd : Arr Num)
    (u : Arr ℝ) (s : SrcOut) (c : ℕ) : Option SrcOut :=
  (T.owned.get c).bind fun w =>
    if w then
      (T.l2o.get c).bind fun o =>
      (u.get ((3 + nt) * c + 0)).bind fun h => (u.get ((3 + nt) * c + 1)).bind fun hu => (u.get ((3 + nt) * c + 2)).bind fun hv =>
      (bedTermB P slope V c h).bind fun b =>
      (fd.get ((3 + nt) * o + 1)).bind fun fx => (fd.get ((3 + nt) * o + 2)).bind fun fy =>
      (tWetB P nt dt src mat u c o ⟨h, hu, hv⟩ fx fy b s.f).bind fun r =>
      (addFlowSourceT nt src o b r.1 r.2).bind fun f' =>
      (if slope then tPutPrim P nt u s.pv c o ⟨h, hu, hv⟩ else some s.pv).map fun pv' => ⟨f', pv'⟩
    else some s

/-- `/repo/src/tracer/tracer_petsc.c:617-737` `ApplyTracerSourceSemiImplicit`, `:1067-1154` `ApplyTracerSourceHRSemiImplicit`, for `nc` local cells. -/
noncomputable def applyTSourceB (P : FlowParams) (slope : Bool) (nt : ℕ) (T : Tables) (V : BedTables) (nc : ℕ) (dt : ℝ) (src mat : Arr ℝ)
    (fd : Arr Num) (u : Arr ℝ) (s : SrcOut) : Option SrcOut :=
  loopM (tSourceStepB P slope nt T V dt src mat fd u) nc s

/-! ### The operators of a run -/

/-- What all operators of a run with sediment keep: that of the fluxes, and `zc` if there is hydrostatic reconstruction.
`/repo/src/tracer/tracer_petsc.c:792-804`. -/
structure TPetscMem where
  flux : TFluxMem
  zc : Option (Arr ℝ)

/-- The operators that `/repo/src/operator.c:194-217` creates in a run with sediment (`/repo/src/operator_fluxes_petsc.c:32`, `:77`). The bed elevations of hydrostatic reconstruction
are the means of the vertices, `/repo/src/tracer/tracer_petsc.c:1036-1046` (the file with elevations of cells is not looked at); the normals are copied in the same way, `:1024-1034`. -/
noncomputable def createTPetsc (wb : WellBalancing) (nt : ℕ) (T : Tables) (V : BedTables) (Bs : List TBnd) (nc : ℕ) : Option TPetscMem :=
  (createTracerInteriorB T nt).bind fun b =>
  (Bs.mapM (createTracerBoundaryB T nt)).bind fun ss =>
    if wb = .hr then (createZc { V with fromFile := false } nc).map fun zc => ⟨⟨b, ss⟩, some zc⟩ else some ⟨⟨b, ss⟩, none⟩

/-- The interior fluxes: `ApplyTracerInteriorFluxHR` for operators that have `zc`, otherwise `ApplyTracerInteriorFlux`.
`/repo/src/operator_fluxes_petsc.c:30-36`, `:74-80`. -/
noncomputable def applyTInteriorOf (sv : TSolver) (P : FlowParams) (nt : ℕ) (T : Tables) (M : TPetscMem) (u : Arr ℝ) (f : Arr Num) :
    Option (TBatch × Arr Num) :=
  match M.zc with
  | none => applyTracerInteriorB sv P nt T M.flux.interior u f
  | some zc => applyTracerInteriorHRB sv P nt T zc M.flux.interior u f

/-- `/repo/src/operator.c:656-672` `ApplyPetscOperator` into the zeroed vector of `n` owned cells (`/repo/src/rdysetup.c:1130`), with `nt` sediment classes; `nc` is the number of local
cells. The source operator is that of the well-balancing method (`/repo/src/operator.c:194-217`). -/
noncomputable def applyTPetsc (sv : TSolver) (P : FlowParams) (wb : WellBalancing) (nt : ℕ) (T : Tables) (V : BedTables) (Bs : List TBnd) (nc n : ℕ)
    (dt : ℝ) (M : TPetscMem) (D : PetscVecs) (u : Arr ℝ) : Option (TPetscMem × PetscVecs × Arr Num) :=
  (applyTInteriorOf sv P nt T M u (Arr.calloc ((3 + nt) * n) (some 0))).bind fun r =>
  (applyTracerBoundariesB sv P nt T u Bs M.flux.bnds r.2).bind fun q =>
  (applyTSourceB P (decide (wb ≠ .hr)) nt T V nc dt D.src D.mat q.2 u ⟨q.2, D.pv⟩).map fun s =>
    (⟨⟨r.1, q.1⟩, M.zc⟩, { D with pv := s.pv, srcInst := D.src }, s.f)

/-- A sequence of evaluations, each with its step, state, external sources and material properties (which setters change in between): the right-hand sides.
`/repo/src/rdysetup.c:1120-1142`. -/
noncomputable def tPetscEvaluations (sv : TSolver) (P : FlowParams) (wb : WellBalancing) (nt : ℕ) (T : Tables) (V : BedTables) (Bs : List TBnd)
    (nc n : ℕ) : TPetscMem → PetscVecs → List (ℝ × Arr ℝ × Arr ℝ × Arr ℝ) → Option (TPetscMem × PetscVecs × List (Arr Num))
  | M, D, [] => some (M, D, [])
  | M, D, (dt, u, src, mat) :: rest =>
    (applyTPetsc sv P wb nt T V Bs nc n dt M { D with src := src, mat := mat } u).bind fun r =>
      (tPetscEvaluations sv P wb nt T V Bs nc n r.1 r.2.1 rest).map fun q => (q.1, q.2.1, r.2.2 :: q.2.2)

end RDy
