import Verif.Model.TracerHR
import Verif.Model.CeedFields

/-!
Model of the CEED right-hand side of a run with tracers on one process: the flux Q-functions
(`/repo/src/tracer/tracer_fluxes_ceed.h`, `/repo/src/tracer/tracer_fluxes_hydro_recon_ceed.h`), the source
Q-functions (`/repo/src/tracer/tracer_sources_ceed.h`, `/repo/src/tracer/tracer_sources_hydro_recon_ceed.h`) and
their application (`/repo/src/operator.c:501-646`). Also which numbers of components the operators of the PETSc
backend accept.

Simplifications as in `Verif.Model.Ceed`: libCEED is taken to apply each Q-function once per listed edge or cell
and to add the results at the offsets of the element restrictions; a NaN in a term that is added to a cell makes
the whole result `none`. Friction is semi-implicit (the only method both backends accept with tracers,
`/repo/src/operator_sources_ceed.c:27-54`, `/repo/src/tracer/tracer_petsc.c:775-782`).
-/

namespace RDy

/-- `+=` of a scaled flux at an offset of the local vector, for all components:
`/repo/src/operator_fluxes_ceed.c:205-235` (restrictions) with `cell_L[j][i] = flux[j] * geom[2][i]`,
`/repo/src/tracer/tracer_fluxes_ceed.h:61-65`. -/
noncomputable def addAtT (f : ℕ → ℕ → ℝ) (i : ℕ) (F : ℕ → ℝ) (s : ℝ) : ℕ → ℕ → ℝ :=
  fun k => if k = i then fun d => f k d + F d * s else f k

/-- `/repo/src/tracer/tracer_fluxes_ceed.h:25-77` `TracerFlux` for one internal edge, added at the places
`local_to_owned` of both cells (`/repo/src/operator_fluxes_ceed.c:205-235`). -/
noncomputable def ceedTEdge (sv : TSolver) (P : FlowParams) (n : ℕ) (pm : PMesh) (u : ℕ → TCons)
    (f : ℕ → ℕ → ℝ) (e : IEdge) : Option (ℕ → ℕ → ℝ) :=
  match e.right with
  | none => some f
  | some r =>
    (tracerFluxCeed sv P.g P.tinyH n (u e.left) (u r) e.sn e.cn).map fun F =>
      addAtT (addAtT f (pm.l2o e.left) F (-e.len / pm.area e.left)) (pm.l2o r) F (e.len / pm.area r)

/-- `/repo/src/tracer/tracer_fluxes_ceed.h:176-181`: the state behind a reflecting wall. -/
def reflectTCeed (q : TCons) (sn cn : ℝ) : TCons :=
  ⟨⟨q.q.h, q.q.hu * (sn * sn - cn * cn) - q.q.hv * (2 * sn * cn),
    -q.q.hu * (2 * sn * cn) - q.q.hv * (sn * sn - cn * cn)⟩, q.hc⟩

/-- `/repo/src/tracer/tracer_fluxes_ceed.h:88-139` `TracerBoundaryFlux_Dirichlet` and `:151-203`
`TracerBoundaryFlux_Reflecting` for one edge (selected at `/repo/src/operator_fluxes_ceed.c:296-359`): the flux of
all components. -/
noncomputable def boundaryTFluxCeed (sv : TSolver) (P : FlowParams) (n : ℕ) (bc : TBCond) (q : TCons)
    (sn cn : ℝ) : Option (ℕ → ℝ) :=
  match bc with
  | .dirichlet s => tracerFluxCeed sv P.g P.tinyH n q s sn cn
  | .reflecting =>
    if q.q.h > P.tinyH then tracerFluxCeed sv P.g P.tinyH n q (reflectTCeed q sn cn) sn cn
    else some fun _ => 0

/-- A boundary edge, `/repo/src/operator_fluxes_ceed.c:513-530`. -/
noncomputable def ceedTBEdge (sv : TSolver) (P : FlowParams) (n : ℕ) (pm : PMesh) (u : ℕ → TCons)
    (f : ℕ → ℕ → ℝ) (e : TBEdge) : Option (ℕ → ℕ → ℝ) :=
  (boundaryTFluxCeed sv P n e.bc (u e.cell) e.sn e.cn).map fun F =>
    addAtT f (pm.l2o e.cell) F (-e.len / pm.area e.cell)

/-- `/repo/src/tracer/tracer_fluxes_hydro_recon_ceed.h:43-140` `TracerFlux_HydroRecon` for one internal edge: the
flux of the reconstructed states and the pressure corrections of the momentum components. The Riemann solver is
Roe's whatever the configuration says (`/repo/src/operator_fluxes_hydro_recon_ceed.c:44-46`). -/
noncomputable def ceedTEdgeHR (P : FlowParams) (n : ℕ) (pm : PMesh) (u : ℕ → TCons)
    (f : ℕ → ℕ → ℝ) (e : IEdge) : Option (ℕ → ℕ → ℝ) :=
  match e.right with
  | none => some f
  | some r =>
    if (u e.left).q.h > P.tinyH ∨ (u r).q.h > P.tinyH then
      (hrTFluxCeed P n (pm.zc e.left) (pm.zc r) (u e.left) (u r) e.sn e.cn).map fun F =>
        addAtT
          (addAtT f (pm.l2o e.left)
            (fun d => F d + hrTCorrection P (u e.left).q.h
              (hrTStateCeed P (pm.zc e.left) (max (pm.zc e.left) (pm.zc r)) (u e.left)).q.h e.sn e.cn d)
            (-e.len / pm.area e.left))
          (pm.l2o r)
          (fun d => F d + hrTCorrection P (u r).q.h
            (hrTStateCeed P (pm.zc r) (max (pm.zc e.left) (pm.zc r)) (u r)).q.h e.sn e.cn d)
          (e.len / pm.area r)
    else some f

/-- `/repo/src/operator.c:561-602`: the flux divergences in the local vector, with (`hr`) or without hydrostatic
reconstruction; boundary edges are not reconstructed (`/repo/src/operator_fluxes_hydro_recon_ceed.c:216-253`). -/
noncomputable def ceedTDiv (hr : Bool) (sv : TSolver) (P : FlowParams) (n : ℕ) (pm : PMesh)
    (bnd : List TBEdge) (u : ℕ → TCons) : Option (ℕ → ℕ → ℝ) :=
  (pm.internal.foldlM (if hr then ceedTEdgeHR P n pm u else ceedTEdge sv P n pm u) fun _ _ => 0).bind fun f =>
    bnd.foldlM (ceedTBEdge sv P n pm u) f

/-- `/repo/src/tracer/tracer_sources_ceed.h:36-76` `TracerSemiImplicitBedFrictionRoughness`, called for
`h > tiny_h` (`:117-130`): the friction term. Velocities are not regularised here. -/
noncomputable def frictionTCeed (P : FlowParams) (dt n : ℝ) (q : Cons) (Fx Fy bx bY : ℝ) :
    Option (ℝ × ℝ) :=
  if q.h > P.tinyH then
    (safeDiv q.hu q.h q.h P.tinyH).bind fun u =>
    (safeDiv q.hv q.h q.h P.tinyH).bind fun v =>
      if q.h = 0 ∨ 1 + dt * (P.g * (n * n) * q.h ^ (-(1 : ℝ) / 3) * √(u * u + v * v) / q.h) = 0 then none
      else some
        ((q.hu + dt * (Fx - bx)) * (P.g * (n * n) * q.h ^ (-(1 : ℝ) / 3) * √(u * u + v * v) / q.h /
          (1 + dt * (P.g * (n * n) * q.h ^ (-(1 : ℝ) / 3) * √(u * u + v * v) / q.h))),
         (q.hv + dt * (Fy - bY)) * (P.g * (n * n) * q.h ^ (-(1 : ℝ) / 3) * √(u * u + v * v) / q.h /
          (1 + dt * (P.g * (n * n) * q.h ^ (-(1 : ℝ) / 3) * √(u * u + v * v) / q.h))))
  else some (0, 0)

/-- `/repo/src/tracer/tracer_sources_ceed.h:97-137` `TracerSources` (and
`/repo/src/tracer/tracer_sources_hydro_recon_ceed.h:50-83`, where the bed-slope term is 0): the right-hand side of
one cell from the flux divergence `F`; components beyond the last one are left as they are. -/
noncomputable def cellTRhsCeed (P : FlowParams) (includeSlope : Bool) (n : ℕ) (dzdx dzdy dt mann : ℝ)
    (src F : ℕ → ℝ) (s : TCons) : Option (ℕ → ℝ) :=
  (frictionTCeed P dt mann s.q (F 1) (F 2) (bedTerm P includeSlope dzdx dzdy s.q.h).1
    (bedTerm P includeSlope dzdx dzdy s.q.h).2).map fun t d =>
      if d = 0 then F 0 + src 0
      else if d = 1 then F 1 - (bedTerm P includeSlope dzdx dzdy s.q.h).1 - t.1 + src 1
      else if d = 2 then F 2 - (bedTerm P includeSlope dzdx dzdy s.q.h).2 - t.2 + src 2
      else if d - 3 < n then F d + tracerSourceCeed P mann s (src d) (d - 3)
      else F d

/-- `/repo/src/operator_sources_ceed.c:175-190`: one cell of the source operator; `CeedOperatorApply` replaces the
entry of an owned cell. -/
noncomputable def ceedTSourceCell (P : FlowParams) (includeSlope : Bool) (n : ℕ) (pm : PMesh) (dt : ℝ)
    (src : ℕ → ℕ → ℝ) (mann : ℕ → ℝ) (fd : ℕ → ℕ → ℝ) (u : ℕ → TCons) (f : ℕ → ℕ → ℝ) (c : ℕ) :
    Option (ℕ → ℕ → ℝ) :=
  if pm.owned c then
    (cellTRhsCeed P includeSlope n (pm.dzdx c) (pm.dzdy c) dt (mann (pm.l2o c)) (src (pm.l2o c)) (fd (pm.l2o c))
      (u c)).map fun F => Function.update f (pm.l2o c) F
  else some f

/-- `/repo/src/operator.c:501-646` `ApplyCeedOperator` of a run with tracers on a single process (so that
`DMLocalToGlobal` adds nothing from elsewhere). -/
noncomputable def ceedTracerRhs (hr : Bool) (sv : TSolver) (P : FlowParams) (n : ℕ) (pm : PMesh)
    (bnd : List TBEdge) (dt : ℝ) (src : ℕ → ℕ → ℝ) (mann : ℕ → ℝ) (u : ℕ → TCons) : Option (ℕ → ℕ → ℝ) :=
  (ceedTDiv hr sv P n pm bnd u).bind fun fd =>
    (List.range pm.numCells).foldlM (ceedTSourceCell P (!hr) n pm dt src mann fd u) fd

/-- The number of components per cell that the interior flux operator of the PETSc backend insists on when it is
applied: with sediment classes those of the tracer operator (`num_tracers_comp` is `sediment.num_classes`,
`/repo/src/tracer/tracer_petsc.c:300`, checks at `:182-184`, `:836-838`), otherwise 3
(`/repo/src/swe/swe_petsc.c:115`, `:233`); selected at `/repo/src/operator_fluxes_petsc.c:30-36`, `:71-76`. -/
def CeedCfg.petscComps (c : CeedCfg) : ℕ := if c.classes > 0 then 3 + c.classes else 3

/-- Whether the PETSc backend evaluates the right-hand side at all: the block size of the solution vector (all
tracers, `/repo/src/rdysetup.c:1403-1411`) is the number of components its operators insist on
(`/repo/src/tracer/tracer_petsc.c:182-184`, `/repo/src/swe/swe_petsc.c:115`). -/
def CeedCfg.petscEvaluates (c : CeedCfg) : Bool := c.comps == c.petscComps

end RDy
