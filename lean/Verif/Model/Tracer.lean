import Verif.Model.Operator

/-!
Model of the transport of tracers (sediment classes, salinity, temperature) by the PETSc backend
(`/repo/src/tracer/tracer_roe_flux_petsc.h`, `/repo/src/tracer/tracer_petsc.c`) and of the edge fluxes of
the CEED backend (`/repo/src/tracer/tracer_roe_flux_ceed.h`, `/repo/src/tracer/tracer_fluxes_ceed.h`).

Components of a cell are numbered as in the code: 0 depth, 1 and 2 momentum, `3 + j` tracer `j`.
-/

namespace RDy

open Finset

/-- one entry of `TracerRiemannStateData` after the velocities and concentrations are computed:
`h`, `u`, `v` and `ci[j]`. `/repo/src/tracer/tracer_types_petsc.h:11-17`. -/
structure TPrim where
  p : Prim
  c : ℕ → ℝ

/-- conserved variables of a cell with tracers: `h`, `hu`, `hv` and `hci[j]`.
`/repo/src/tracer/tracer_types_petsc.h:11-17`. -/
structure TCons where
  q : Cons
  hc : ℕ → ℝ

/-- `/repo/src/tracer/tracer_petsc.c:105-128` `ComputeRiemannVelocitiesAndConcentration` for one state
(division is real division; for `tiny_h > 0` the divisor is positive). -/
noncomputable def tracerVelocities (tinyH : ℝ) (s : TCons) : TPrim :=
  if s.q.h < tinyH then ⟨⟨s.q.h, 0, 0⟩, fun _ => 0⟩
  else ⟨⟨s.q.h, s.q.hu / s.q.h, s.q.hv / s.q.h⟩, fun j => s.hc j / s.q.h⟩

/-- `R_swe`, `/repo/src/swe/swe_roe_flux_petsc.h:37-45` -/
noncomputable def sweR (e : RoeEig) (sn cn : ℝ) : ℕ → ℕ → ℝ
  | 0, 0 => 1
  | 0, 2 => 1
  | 1, 0 => e.uhat - e.chat * cn
  | 1, 1 => -sn
  | 1, 2 => e.uhat + e.chat * cn
  | 2, 0 => e.vhat - e.chat * sn
  | 2, 1 => cn
  | 2, 2 => e.vhat + e.chat * sn
  | _, _ => 0

/-- `A_swe`. `/repo/src/tracer/tracer_roe_flux_petsc.h:50-51`. -/
def sweA (e : RoeEig) : ℕ → ℝ
  | 0 => e.a1
  | 1 => e.a2
  | _ => e.a3

/-- `dW_swe`. `/repo/src/tracer/tracer_roe_flux_petsc.h:50-51`. -/
def sweW (e : RoeEig) : ℕ → ℝ
  | 0 => e.w1
  | 1 => e.w2
  | _ => e.w3

/-- `/repo/src/tracer/tracer_roe_flux_petsc.h:66-75`: the matrix `R`; `chat j` is `cihat[j]`. -/
noncomputable def tracerR (e : RoeEig) (sn cn : ℝ) (chat : ℕ → ℝ) (i d : ℕ) : ℝ :=
  if i < 3 then (if d < 3 then sweR e sn cn i d else 0)
  else if d = 0 ∨ d = 2 then chat (i - 3)
  else if d = i then 1 else 0

/-- `/repo/src/tracer/tracer_roe_flux_petsc.h:77-82`: `A`. -/
def tracerA (e : RoeEig) (d : ℕ) : ℝ := if d < 3 then sweA e d else sweA e 1

/-- `/repo/src/tracer/tracer_roe_flux_petsc.h:61-62`: `cihat` -/
noncomputable def tracerChat (L R : TPrim) (j : ℕ) : ℝ := roeAvg L.p.h R.p.h (L.c j) (R.c j)

/-- `/repo/src/tracer/tracer_roe_flux_petsc.h:62-63,84-89`: `dW`. -/
noncomputable def tracerW (e : RoeEig) (L R : TPrim) (d : ℕ) : ℝ :=
  if d < 3 then sweW e d
  else (R.c (d - 3) * R.p.h - L.c (d - 3) * L.p.h) - tracerChat L R (d - 3) * (R.p.h - L.p.h)

/-- `/repo/src/tracer/tracer_roe_flux_petsc.h:91-104`: `FL`, `FR`. -/
noncomputable def tracerSide (g : ℝ) (s : TPrim) (sn cn : ℝ) (d : ℕ) : ℝ :=
  if d = 0 then (sideFlux g s.p sn cn).m
  else if d = 1 then (sideFlux g s.p sn cn).x
  else if d = 2 then (sideFlux g s.p sn cn).y
  else s.p.h * uperp s.p.u s.p.v sn cn * s.c (d - 3)

/-- `/repo/src/tracer/tracer_roe_flux_petsc.h:106-114`: `fij`, with `n` tracers. -/
noncomputable def tracerCombine (g : ℝ) (n : ℕ) (L R : TPrim) (e : RoeEig) (sn cn : ℝ) (i : ℕ) : ℝ :=
  0.5 * (tracerSide g L sn cn i + tracerSide g R sn cn i) -
    ∑ d ∈ range (3 + n), 0.5 * tracerR e sn cn (tracerChat L R) i d * tracerA e d * tracerW e L R d

/-- `/repo/src/tracer/tracer_roe_flux_petsc.h:170-195`: the fluxes of the upwind solver; its flow
components are those of the Roe solver (written there as `0.5*(FL+FR) - 0.5*(…)`, the same real
number). -/
noncomputable def upwindCombine (g : ℝ) (L R : TPrim) (e : RoeEig) (sn cn : ℝ) (i : ℕ) : ℝ :=
  let F := roeCombine (sideFlux g L.p sn cn) (sideFlux g R.p sn cn) e sn cn
  if i = 0 then F.m else if i = 1 then F.x else if i = 2 then F.y
  else F.m * (if F.m ≥ 0 then L.c (i - 3) else R.c (i - 3))

/-- the Riemann solvers for tracers (`RIEMANN_ROE`, `RIEMANN_UPWIND_ROE`).
`/repo/include/private/rdyconfigimpl.h:118-122`. -/
inductive TSolver
  | roe
  | upwind

open Classical in
/-- `/repo/src/tracer/tracer_roe_flux_petsc.h:17-119`, `:129-206`: fluxes of all components through an edge;
`none` if the depths do not allow a square root or are both 0. -/
noncomputable def tracerFlux (sv : TSolver) (g : ℝ) (n : ℕ) (L R : TPrim) (sn cn : ℝ) : Option (ℕ → ℝ) :=
  if RoeDefined L.p.h R.p.h then
    match sv with
    | .roe => some (tracerCombine g n L R (roeEig g L.p R.p sn cn) sn cn)
    | .upwind => some (upwindCombine g L R (roeEig g L.p R.p sn cn) sn cn)
  else none

/-- `/repo/src/tracer/tracer_petsc.c:237`, `:504`: the fluxes that are used; none if both sides are dry. -/
noncomputable def usedTracerFlux (sv : TSolver) (g tinyH : ℝ) (n : ℕ) (L R : TPrim) (sn cn : ℝ) :
    Option (ℕ → ℝ) :=
  if ¬ (R.p.h < tinyH ∧ L.p.h < tinyH) then tracerFlux sv g n L R sn cn else some fun _ => 0

/-- Boundary conditions with tracers (`/repo/src/tracer/tracer_petsc.c:456-479`): prescribed values, or
reflecting; critical outflow is rejected there. -/
inductive TBCond
  | dirichlet (s : TCons)
  | reflecting

/-- `/repo/src/tracer/tracer_petsc.c:362-395` `ApplyTracerReflectingBC` and `:456-473`. -/
noncomputable def tracerRight (tinyH : ℝ) (bc : TBCond) (L : TPrim) (sn cn : ℝ) : TPrim :=
  match bc with
  | .dirichlet s => tracerVelocities tinyH s
  | .reflecting => ⟨reflectRight L.p sn cn, L.c⟩

/-- a boundary edge as one process sees it, in a run with tracers.
`/repo/src/tracer/tracer_petsc.c:412-479`. -/
structure TBEdge where
  cell : ℕ
  len : ℝ
  sn : ℝ
  cn : ℝ
  bc : TBCond

/-- `if (cells->is_owned[c]) f_ptr[n_dof * owned + i_dof] += …` for all components.
`/repo/src/tracer/tracer_petsc.c:248-266`. -/
noncomputable def addOwnedT (pm : PMesh) (f : ℕ → ℕ → ℝ) (c : ℕ) (F : ℕ → ℝ) (s : ℝ) : ℕ → ℕ → ℝ :=
  if pm.owned c then fun i => if i = pm.l2o c then fun d => f i d + F d * s else f i else f

/-- `/repo/src/tracer/tracer_petsc.c:184-266`: one internal edge of `ApplyTracerInteriorFlux`. -/
noncomputable def tracerEdge (sv : TSolver) (P : FlowParams) (n : ℕ) (pm : PMesh) (u : ℕ → TCons)
    (f : ℕ → ℕ → ℝ) (e : IEdge) : Option (ℕ → ℕ → ℝ) :=
  match e.right with
  | none => some f
  | some r =>
    (usedTracerFlux sv P.g P.tinyH n (tracerVelocities P.tinyH (u e.left))
      (tracerVelocities P.tinyH (u r)) e.sn e.cn).map fun F =>
        addOwnedT pm (addOwnedT pm f e.left F (-e.len / pm.area e.left)) r F (e.len / pm.area r)

/-- `/repo/src/tracer/tracer_petsc.c:412-518`: one boundary edge of `ApplyTracerBoundaryFlux`. -/
noncomputable def tracerBEdge (sv : TSolver) (P : FlowParams) (n : ℕ) (pm : PMesh) (u : ℕ → TCons)
    (f : ℕ → ℕ → ℝ) (e : TBEdge) : Option (ℕ → ℕ → ℝ) :=
  if pm.owned e.cell then
    (usedTracerFlux sv P.g P.tinyH n (tracerVelocities P.tinyH (u e.cell))
      (tracerRight P.tinyH e.bc (tracerVelocities P.tinyH (u e.cell)) e.sn e.cn) e.sn e.cn).map fun F =>
        addOwnedT pm f e.cell F (-e.len / pm.area e.cell)
  else some f

/-- `/repo/src/tracer/tracer_petsc.c:152-270`, `:405-525`: the flux divergence of all components. -/
noncomputable def tracerDivergence (sv : TSolver) (P : FlowParams) (n : ℕ) (pm : PMesh)
    (bnd : List TBEdge) (u : ℕ → TCons) : Option (ℕ → ℕ → ℝ) :=
  (pm.internal.foldlM (tracerEdge sv P n pm u) fun _ _ => 0).bind fun f =>
    bnd.foldlM (tracerBEdge sv P n pm u) f

/-! ### Sources -/

/-- `/repo/src/tracer/tracer_petsc.c:688-708`: erosion minus deposition of one sediment class in a wet cell;
`n` is Manning's coefficient. The constants are those at `:633-637` (`rhow` = 1000,
`/repo/src/tracer/tracer_types_petsc.h:8`). -/
noncomputable def erosionDeposition (g n : ℝ) (q : Cons) (hc : ℝ) : ℝ :=
  let Cd := g * (n * n) * q.h ^ (-(1 : ℝ) / 3)
  let taub := 0.5 * 1000 * Cd * (q.hu / q.h * (q.hu / q.h) + q.hv / q.h * (q.hv / q.h))
  0.001 * (taub - 0.1) / 0.1 - 0.01 * (hc / q.h) * (1 - taub / 1000)

/-- `/repo/src/tracer/tracer_petsc.c:686-708`: what the source operator adds to tracer `j` of a cell;
`src` is the external source. -/
noncomputable def tracerSource (P : FlowParams) (n : ℝ) (s : TCons) (src : ℝ) (j : ℕ) : ℝ :=
  if s.q.h ≥ P.tinyH then erosionDeposition P.g n s.q (s.hc j) + src else 0

/-- `/repo/src/tracer/tracer_petsc.c:688` (and `:1123`): the entry of the vector of Manning's coefficients
(stored by owned number) that is read for local cell `c`. -/
def tracerManningIndex (_pm : PMesh) (c : ℕ) : ℕ := c

/-- `/repo/src/swe/swe_petsc.c:769`: the entry read without tracers (`NUM_MATERIAL_PROPERTIES` is 1,
`/repo/CMakeLists.txt:18`). -/
def flowManningIndex (pm : PMesh) (c : ℕ) : ℕ := pm.l2o c

/-! ### CEED -/

/-- `/repo/src/tracer/tracer_roe_flux_ceed.h:20-29` (and `:113-122`): velocities and concentrations of the
two states; the right concentrations are guarded by the *left* depth. -/
noncomputable def tracerVelocitiesCeed (tinyH : ℝ) (qL qR : TCons) : Option (TPrim × TPrim) :=
  (safeDiv qL.q.hu qL.q.h qL.q.h tinyH).bind fun ul =>
  (safeDiv qL.q.hv qL.q.h qL.q.h tinyH).bind fun vl =>
  (safeDiv qR.q.hu qR.q.h qR.q.h tinyH).bind fun ur =>
  (safeDiv qR.q.hv qR.q.h qR.q.h tinyH).bind fun vr =>
    if qL.q.h > tinyH ∧ (qL.q.h = 0 ∨ qR.q.h = 0) then none
    else some (⟨⟨qL.q.h, ul, vl⟩, fun j => if qL.q.h > tinyH then qL.hc j / qL.q.h else 0⟩,
      ⟨⟨qR.q.h, ur, vr⟩, fun j => if qL.q.h > tinyH then qR.hc j / qR.q.h else 0⟩)

open Classical in
/-- `/repo/src/tracer/tracer_fluxes_ceed.h:46-85` `TracerFlux` and
`/repo/src/tracer/tracer_roe_flux_ceed.h:17-171`: fluxes of all components through an internal edge. `none`
stands for a division by zero in the concentrations (for `n = 0` tracers there is none, a case excluded
here). -/
noncomputable def tracerFluxCeed (sv : TSolver) (g tinyH : ℝ) (n : ℕ) (qL qR : TCons) (sn cn : ℝ) :
    Option (ℕ → ℝ) :=
  if qL.q.h > tinyH ∨ qR.q.h > tinyH then
    (tracerVelocitiesCeed tinyH qL qR).bind fun s =>
      if RoeDefined s.1.p.h s.2.p.h then
        match sv with
        | .roe => some (tracerCombine g n s.1 s.2 (roeEigCeed g s.1.p s.2.p sn cn) sn cn)
        | .upwind => some (upwindCombine g s.1 s.2 (roeEigCeed g s.1.p s.2.p sn cn) sn cn)
      else none
  else some fun _ => 0

/-- `/repo/src/tracer/tracer_sources_ceed.h:107-136`: the right-hand side of tracer `j` minus its flux
divergence (semi-implicit friction). -/
noncomputable def tracerSourceCeed (P : FlowParams) (n : ℝ) (s : TCons) (src : ℝ) (j : ℕ) : ℝ :=
  (if s.q.h > P.tinyH then erosionDeposition P.g n s.q (s.hc j) else 0) + src

end RDy
