import Verif.Model.Tracer

/-!
Model of the CEED right-hand side of the shallow-water equations on one process: `ApplyCeedOperator`
(`/repo/src/operator.c:501-646`), its flux suboperators (`/repo/src/operator_fluxes_ceed.c`,
`/repo/src/operator_fluxes_hydro_recon_ceed.c`) and its source Q-functions
(`/repo/src/swe/swe_sources_ceed.h`, `/repo/src/swe/swe_sources_hydro_recon_ceed.h`).

Simplifications: libCEED is taken to apply each Q-function once per listed edge or cell and to add the
results at the offsets of the element restrictions; without second-order reconstruction and without the
vertex-based method BS2002 the change of depth along an edge (`dhv`) is 0.
-/

namespace RDy

/-- An internal edge, `/repo/src/operator_fluxes_ceed.c:205-235` with `/repo/src/swe/swe_fluxes_ceed.h:60-95`:
the flux goes to the places `local_to_owned` of both cells of the local vector, owned or not. `pm.internal`
stands for the internal edges the process owns; the code relies on all of them having two cells. -/
noncomputable def ceedEdge (P : FlowParams) (pm : PMesh) (u : ℕ → Cons) (f : ℕ → Flux) (e : IEdge) :
    Option (ℕ → Flux) :=
  match e.right with
  | none => some f
  | some r =>
    (edgeFluxCeed P.g P.tinyH P.hAnuga (u e.left) (u r) e.sn e.cn 0).map fun F =>
      addAt (addAt f (pm.l2o e.left) (F.1.smul (-e.len / pm.area e.left)))
        (pm.l2o r) (F.1.smul (e.len / pm.area r))

/-- The flux of a boundary edge: `/repo/src/operator_fluxes_ceed.c:340-380` selects the Q-function. -/
noncomputable def boundaryFluxCeed (P : FlowParams) (bc : BCond) (q : Cons) (sn cn : ℝ) :
    Option (Flux × ℝ) :=
  match bc with
  | .dirichlet qb => edgeFluxCeed P.g P.tinyH P.hAnuga q qb sn cn 0
  | .reflecting => reflectFluxCeed P.g P.tinyH P.hAnuga q sn cn 0
  | .outflow => outflowFluxCeed P.g P.tinyH P.hAnuga q sn cn 0

/-- A boundary edge the process owns, `/repo/src/operator_fluxes_ceed.c:513-530`. -/
noncomputable def ceedBEdge (P : FlowParams) (pm : PMesh) (u : ℕ → Cons) (f : ℕ → Flux) (e : BEdge) :
    Option (ℕ → Flux) :=
  (boundaryFluxCeed P e.bc (u e.cell) e.sn e.cn).map fun F =>
    addAt f (pm.l2o e.cell) (F.1.smul (-e.len / pm.area e.cell))

/-! ### Hydrostatic reconstruction -/

/-- `/repo/src/swe/swe_fluxes_hydro_recon_ceed.h:93-112`: the reconstructed conserved variables of one
side. -/
noncomputable def hrStateCeed (P : FlowParams) (z zmax : ℝ) (q : Cons) : Option Cons :=
  (velocitiesCeed P.tinyH P.hAnuga q).map fun s =>
    ⟨max 0 (q.h + z - zmax), max 0 (q.h + z - zmax) * s.u, max 0 (q.h + z - zmax) * s.v⟩

/-- `/repo/src/swe/swe_fluxes_hydro_recon_ceed.h:114-131`: the Roe flux of the reconstructed states (0 if both
are dry). -/
noncomputable def hrFluxCeed (P : FlowParams) (L R : Cons) (sn cn : ℝ) : Option Flux :=
  if L.h > P.tinyH ∨ R.h > P.tinyH then
    (roeFluxCeed P.g P.tinyH P.hAnuga L R sn cn 0).map Prod.fst
  else some ⟨0, 0, 0⟩

/-- `/repo/src/swe/swe_fluxes_hydro_recon_ceed.h:77-160` `SWEFlux_HydroRecon` for one edge: what the two
cells receive before scaling by length over area. -/
noncomputable def hrPairCeed (P : FlowParams) (zL zR : ℝ) (qL qR : Cons) (sn cn : ℝ) :
    Option (Flux × Flux) :=
  if qL.h > P.tinyH ∨ qR.h > P.tinyH then
    (hrStateCeed P zL (max zL zR) qL).bind fun L => (hrStateCeed P zR (max zL zR) qR).bind fun R =>
      (hrFluxCeed P L R sn cn).map fun F =>
        (F.add (hrCorrection P qL.h L.h sn cn), F.add (hrCorrection P qR.h R.h sn cn))
  else some (⟨0, 0, 0⟩, ⟨0, 0, 0⟩)

/-- `/repo/src/operator_fluxes_hydro_recon_ceed.c:160-180`: one internal edge. -/
noncomputable def ceedEdgeHR (P : FlowParams) (pm : PMesh) (u : ℕ → Cons) (f : ℕ → Flux) (e : IEdge) :
    Option (ℕ → Flux) :=
  match e.right with
  | none => some f
  | some r =>
    (hrPairCeed P (pm.zc e.left) (pm.zc r) (u e.left) (u r) e.sn e.cn).map fun F =>
      addAt (addAt f (pm.l2o e.left) (F.1.smul (-e.len / pm.area e.left)))
        (pm.l2o r) (F.2.smul (e.len / pm.area r))

/-! ### Sources -/

/-- `/repo/src/swe/swe_sources_ceed.h:37-61` `SWESemiImplicitBedFrictionRoughness` in a wet cell. -/
noncomputable def semiImplicitCeed (P : FlowParams) (dt n : ℝ) (q : Cons) (Fx Fy bx bY : ℝ) :
    Option (ℝ × ℝ) :=
  (velocitiesCeed P.tinyH P.hAnuga q).bind fun s =>
    let tb := P.g * (n * n) * q.h ^ (-(1 : ℝ) / 3) * √(s.u * s.u + s.v * s.v) / q.h
    if q.h = 0 ∨ 1 + dt * tb = 0 then none
    else some ((q.hu + dt * (Fx - bx)) * (tb / (1 + dt * tb)),
      (q.hv + dt * (Fy - bY)) * (tb / (1 + dt * tb)))

/-- `/repo/src/swe/swe_sources_ceed.h:81` `lambda` -/
noncomputable def xqLambdaCeed (P : FlowParams) (n h mx my : ℝ) : ℝ :=
  P.g * (n * n) * h ^ (-(4 : ℝ) / 3) * (mx / h * (mx / h) + my / h * (my / h)) ^ (0.5 : ℝ)

/-- `/repo/src/swe/swe_sources_ceed.h:83-93`: the discharge at the end of the step. -/
noncomputable def xqDischargeCeed (P : FlowParams) (dt n h mx my : ℝ) : Option (ℝ × ℝ) :=
  if dt * xqLambdaCeed P n h mx my < P.xqThreshold then some (mx, my)
  else if -2 * dt * xqLambdaCeed P n h mx my = 0 then none
  else some ((mx - mx * (1 + 4 * dt * xqLambdaCeed P n h mx my) ^ (0.5 : ℝ)) /
      (-2 * dt * xqLambdaCeed P n h mx my),
    (my - my * (1 + 4 * dt * xqLambdaCeed P n h mx my) ^ (0.5 : ℝ)) /
      (-2 * dt * xqLambdaCeed P n h mx my))

/-- `/repo/src/swe/swe_sources_ceed.h:68-102` `SWEImplicitBedFrictionRoughnessXQ2018` in a wet cell. -/
noncomputable def xqCeed (P : FlowParams) (dt n : ℝ) (q : Cons) (Fx Fy bx bY : ℝ) : Option (ℝ × ℝ) :=
  if q.h = 0 then none
  else (xqDischargeCeed P dt n q.h (q.hu + (Fx - bx) * dt) (q.hv + (Fy - bY) * dt)).map fun s =>
    (P.g * (n * n) * q.h ^ (-(7 : ℝ) / 3) * s.1 * (s.1 * s.1 + s.2 * s.2) ^ (0.5 : ℝ),
     P.g * (n * n) * q.h ^ (-(7 : ℝ) / 3) * s.2 * (s.1 * s.1 + s.2 * s.2) ^ (0.5 : ℝ))

/-- `/repo/src/swe/swe_sources_ceed.h:133-148`: the friction term of a cell. -/
noncomputable def frictionCeed (P : FlowParams) (m : FrictionMethod) (dt n : ℝ) (q : Cons)
    (Fx Fy bx bY : ℝ) : Option (ℝ × ℝ) :=
  if q.h > P.tinyH then
    match m with
    | .semiImplicit => semiImplicitCeed P dt n q Fx Fy bx bY
    | .xq2018 => xqCeed P dt n q Fx Fy bx bY
  else some (0, 0)

/-- `/repo/src/swe/swe_sources_ceed.h:104-152` `SWESources` (and, without the bed slope,
`/repo/src/swe/swe_sources_hydro_recon_ceed.h:31-76`): the right-hand side of one cell from the flux
divergence `F`. -/
noncomputable def cellRhsCeed (P : FlowParams) (m : FrictionMethod) (includeSlope : Bool)
    (dzdx dzdy dt n : ℝ) (src F : Flux) (q : Cons) : Option Flux :=
  let b := bedTerm P includeSlope dzdx dzdy q.h
  (frictionCeed P m dt n q F.x F.y b.1 b.2).map fun t =>
    ⟨F.m + src.m, F.x - b.1 - t.1 + src.x, F.y - b.2 - t.2 + src.y⟩

/-- `/repo/src/operator_sources_ceed.c:175-190`: one cell of the source operator; `CeedOperatorApply`
replaces the entry of an owned cell. -/
noncomputable def ceedSourceCell (P : FlowParams) (m : FrictionMethod) (includeSlope : Bool) (pm : PMesh)
    (dt : ℝ) (src : ℕ → Flux) (mann : ℕ → ℝ) (fd : ℕ → Flux) (u : ℕ → Cons) (f : ℕ → Flux) (c : ℕ) :
    Option (ℕ → Flux) :=
  if pm.owned c then
    (cellRhsCeed P m includeSlope (pm.dzdx c) (pm.dzdy c) dt (mann (pm.l2o c)) (src (pm.l2o c))
      (fd (pm.l2o c)) (u c)).map fun F => Function.update f (pm.l2o c) F
  else some f

/-- `/repo/src/operator.c:561-602`: the flux divergences in the local vector. -/
noncomputable def ceedDivergence (P : FlowParams) (hr : Bool) (pm : PMesh) (u : ℕ → Cons) :
    Option (ℕ → Flux) :=
  (pm.internal.foldlM (if hr then ceedEdgeHR P pm u else ceedEdge P pm u) fun _ => Flux.zero).bind
    fun f => pm.boundary.foldlM (ceedBEdge P pm u) f

/-- `/repo/src/operator.c:501-646` `ApplyCeedOperator` on a single process (so that `DMLocalToGlobal` adds
nothing from elsewhere). -/
noncomputable def ceedRhs (P : FlowParams) (m : FrictionMethod) (hr : Bool) (pm : PMesh) (dt : ℝ)
    (src : ℕ → Flux) (mann : ℕ → ℝ) (u : ℕ → Cons) : Option (ℕ → Flux) :=
  (ceedDivergence P hr pm u).bind fun fd =>
    (List.range pm.numCells).foldlM (ceedSourceCell P m (!hr) pm dt src mann fd u) fd

end RDy
