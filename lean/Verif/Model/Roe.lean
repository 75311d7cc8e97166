import Mathlib.Analysis.SpecialFunctions.Pow.Real
import Mathlib.Analysis.SpecialFunctions.Sqrt

/-!
Model of the Roe solver for the shallow-water equations, of both backends
(`/repo/src/swe/swe_roe_flux_petsc.h`, `/repo/src/swe/swe_roe_flux_ceed.h`), and of the states at
boundary edges.

`g` is the gravitational acceleration (`GRAVITY` with PETSc, `context->gravity` with CEED). Results
that would be NaN in C (square root of a negative number, `0/0`) are `none`.
-/

namespace RDy

/-- depth and velocity: one entry of `RiemannStateData` (`h`, `u`, `v`).
`/repo/src/swe/swe_types_petsc.h:14-18`. -/
structure Prim where
  h : ℝ
  u : ℝ
  v : ℝ

/-- conserved variables of a cell: entries `3c … 3c+2` of the solution vector.
`/repo/src/swe/swe_petsc.c:244-262`. -/
structure Cons where
  h : ℝ
  hu : ℝ
  hv : ℝ

/-- a flux: mass and momentum through an edge of unit length. `/repo/src/swe/swe_types_petsc.h:20-25`. -/
@[ext] structure Flux where
  m : ℝ
  x : ℝ
  y : ℝ

/-- `/repo/src/swe/swe_petsc.c:57-73` `ComputeRiemannVelocities` for one state. -/
noncomputable def velocities (tinyH hAnuga : ℝ) (q : Cons) : Prim :=
  if q.h < tinyH then ⟨q.h, 0, 0⟩
  else ⟨q.h, q.hu * q.h / (q.h * q.h + hAnuga * hAnuga), q.hv * q.h / (q.h * q.h + hAnuga * hAnuga)⟩

/-- `/repo/src/swe/swe_roe_flux_petsc.h:26-27`: Roe average of `ul` and `ur`. -/
noncomputable def roeAvg (hl hr ul ur : ℝ) : ℝ := (√hl * ul + √hr * ur) / (√hl + √hr)

/-- `/repo/src/swe/swe_roe_flux_petsc.h:28` `chat` -/
noncomputable def roeC (g hl hr : ℝ) : ℝ := √(0.5 * g * (hl + hr))

/-- `/repo/src/swe/swe_roe_flux_petsc.h:59-61,65-67`: the critical-flow (entropy) fix. -/
noncomputable def entropyFix (a da : ℝ) : ℝ := if a < da then 0.5 * (a * a / da + da) else a

/-- What `ComputeSWERoeEigenspectrum` returns (`lambda`, `dW`, `amax`, and the parts `uhat`, `vhat`,
`chat` of the matrix `R`). `/repo/src/swe/swe_roe_flux_petsc.h:15-80`. -/
structure RoeEig where
  a1 : ℝ
  a2 : ℝ
  a3 : ℝ
  w1 : ℝ
  w2 : ℝ
  w3 : ℝ
  uhat : ℝ
  vhat : ℝ
  chat : ℝ
  amax : ℝ

/-- normal velocity, `/repo/src/swe/swe_roe_flux_petsc.h:49-50` -/
def uperp (u v sn cn : ℝ) : ℝ := u * cn + v * sn

/-- `/repo/src/swe/swe_roe_flux_petsc.h:15-80` `ComputeSWERoeEigenspectrum` (PETSc). -/
noncomputable def roeEig (g : ℝ) (L R : Prim) (sn cn : ℝ) : RoeEig where
  a1 := entropyFix |uperp (roeAvg L.h R.h L.u R.u) (roeAvg L.h R.h L.v R.v) sn cn - roeC g L.h R.h|
    (max 0 (2 * ((uperp R.u R.v sn cn - √(g * R.h)) - (uperp L.u L.v sn cn - √(g * L.h)))))
  a2 := |uperp (roeAvg L.h R.h L.u R.u) (roeAvg L.h R.h L.v R.v) sn cn|
  a3 := entropyFix |uperp (roeAvg L.h R.h L.u R.u) (roeAvg L.h R.h L.v R.v) sn cn + roeC g L.h R.h|
    (max 0 (2 * ((uperp R.u R.v sn cn + √(g * R.h)) - (uperp L.u L.v sn cn + √(g * L.h)))))
  w1 := 0.5 * ((R.h - L.h) - √L.h * √R.h * uperp (R.u - L.u) (R.v - L.v) sn cn / roeC g L.h R.h)
  w2 := √L.h * √R.h * (-(R.u - L.u) * sn + (R.v - L.v) * cn)
  w3 := 0.5 * ((R.h - L.h) + √L.h * √R.h * uperp (R.u - L.u) (R.v - L.v) sn cn / roeC g L.h R.h)
  uhat := roeAvg L.h R.h L.u R.u
  vhat := roeAvg L.h R.h L.v R.v
  chat := roeC g L.h R.h
  amax := roeC g L.h R.h + |uperp (roeAvg L.h R.h L.u R.u) (roeAvg L.h R.h L.v R.v) sn cn|

/-- `/repo/src/swe/swe_roe_flux_petsc.h:110-121` `FL`, `FR`: the normal flux of one state. -/
noncomputable def sideFlux (g : ℝ) (q : Prim) (sn cn : ℝ) : Flux :=
  ⟨uperp q.u q.v sn cn * q.h,
   q.u * uperp q.u q.v sn cn * q.h + 0.5 * g * q.h * q.h * cn,
   q.v * uperp q.u q.v sn cn * q.h + 0.5 * g * q.h * q.h * sn⟩

/-- `/repo/src/swe/swe_roe_flux_petsc.h:37-45`, `:123-126`:
`0.5*(FL + FR - matmul(R, matmul(A, dW)))` with the matrix `R` written out. -/
noncomputable def roeCombine (FL FR : Flux) (e : RoeEig) (sn cn : ℝ) : Flux :=
  ⟨0.5 * (FL.m + FR.m - 1 * e.a1 * e.w1 - 0 * e.a2 * e.w2 - 1 * e.a3 * e.w3),
   0.5 * (FL.x + FR.x - (e.uhat - e.chat * cn) * e.a1 * e.w1 - (-sn) * e.a2 * e.w2 -
     (e.uhat + e.chat * cn) * e.a3 * e.w3),
   0.5 * (FL.y + FR.y - (e.vhat - e.chat * sn) * e.a1 * e.w1 - cn * e.a2 * e.w2 -
     (e.vhat + e.chat * sn) * e.a3 * e.w3)⟩

/-- The states for which the Roe solver returns numbers: otherwise it takes the square root of a
negative depth or, for two zero depths, computes `0/0` (`uhat`, `hhat*duperp/chat`).
`/repo/src/swe/swe_roe_flux_petsc.h:26-35`. -/
def RoeDefined (hl hr : ℝ) : Prop := 0 ≤ hl ∧ 0 ≤ hr ∧ 0 < hl + hr

open Classical in
/-- `/repo/src/swe/swe_roe_flux_petsc.h:90-131` `ComputeSWERoeFlux` for one edge: flux and wave
speed. -/
noncomputable def roeFlux (g : ℝ) (L R : Prim) (sn cn : ℝ) : Option (Flux × ℝ) :=
  if RoeDefined L.h R.h then
    some (roeCombine (sideFlux g L sn cn) (sideFlux g R sn cn) (roeEig g L R sn cn) sn cn,
      (roeEig g L R sn cn).amax)
  else none

/-! ### Boundary edges (PETSc) -/

/-- `/repo/src/swe/swe_petsc.c:445-456` `ApplyReflectingBC` for one edge whose cell is owned. -/
def reflectRight (L : Prim) (sn cn : ℝ) : Prim :=
  ⟨L.h, L.u * (sn * sn - cn * cn) - L.v * (2 * sn * cn),
   -L.u * (2 * sn * cn) - L.v * (sn * sn - cn * cn)⟩

/-- `/repo/src/swe/swe_petsc.c:476-500` `ApplyCriticalOutflowBC` for one edge whose cell is owned:
the new left and right states. -/
noncomputable def outflowStates (g : ℝ) (L : Prim) (sn cn : ℝ) : Prim × Prim :=
  if uperp L.u L.v sn cn < 0 then (⟨0, 0, 0⟩, ⟨0, 0, 0⟩)
  else
    let hR := (L.h * |uperp L.u L.v sn cn| * (L.h * |uperp L.u L.v sn cn|) / g) ^ (1 / 3 : ℝ)
    (L, ⟨hR, √(g * hR) * cn, √(g * hR) * sn⟩)

/-- The flow condition of a boundary, for one of its edges: Dirichlet values (as conserved
variables), reflecting, or critical outflow.
`/repo/include/rdycore.h:133-139`; `/repo/src/swe/swe_petsc.c:541-573`. -/
inductive BCond
  | dirichlet (q : Cons)
  | reflecting
  | outflow

/-- `/repo/src/swe/swe_petsc.c:540-573`: the two states of a boundary edge. -/
noncomputable def boundaryStates (g tinyH hAnuga : ℝ) (bc : BCond) (q : Cons) (sn cn : ℝ) :
    Prim × Prim :=
  match bc with
  | .dirichlet qb => (velocities tinyH hAnuga q, velocities tinyH hAnuga qb)
  | .reflecting => (velocities tinyH hAnuga q, reflectRight (velocities tinyH hAnuga q) sn cn)
  | .outflow => outflowStates g (velocities tinyH hAnuga q) sn cn

/-- `/repo/src/swe/swe_petsc.c:594-611` (and `:286-306` for interior edges): the flux added to the
cells, which is skipped if both sides are dry. -/
noncomputable def usedFlux (g tinyH : ℝ) (L R : Prim) (sn cn : ℝ) : Option Flux :=
  if ¬ (R.h < tinyH ∧ L.h < tinyH) then (roeFlux g L R sn cn).map Prod.fst else some ⟨0, 0, 0⟩

/-- `/repo/src/swe/swe_petsc.c:623`: the flux accumulated for the boundary time series, which is
taken for all edges. -/
noncomputable def accumulatedFlux (g : ℝ) (L R : Prim) (sn cn : ℝ) : Option Flux :=
  (roeFlux g L R sn cn).map Prod.fst

/-! ### CEED -/

/-- `/repo/include/private/physics_ceed.h.in:26` `SafeDiv(a, b, c, tiny)`; `none` is a division by
zero. -/
noncomputable def safeDiv (a b c tiny : ℝ) : Option ℝ :=
  if c > tiny then (if b = 0 then none else some (a / b)) else some 0

/-- `/repo/src/swe/swe_roe_flux_ceed.h:86-92`: the velocities of one state. -/
noncomputable def velocitiesCeed (tinyH hAnuga : ℝ) (q : Cons) : Option Prim :=
  (safeDiv (q.hu * q.h) (q.h * q.h + hAnuga * hAnuga) q.h tinyH).bind fun u =>
    (safeDiv (q.hv * q.h) (q.h * q.h + hAnuga * hAnuga) q.h tinyH).map fun v => ⟨q.h, u, v⟩

/-- `/repo/src/swe/swe_roe_flux_ceed.h:15-79` `ComputeSWEEigenspectrum_Roe` (CEED): unlike the PETSc
version it computes the wave speeds of the sides as `sqrt(gravity)*sqrt(h)`. -/
noncomputable def roeEigCeed (g : ℝ) (L R : Prim) (sn cn : ℝ) : RoeEig where
  a1 := entropyFix |uperp (roeAvg L.h R.h L.u R.u) (roeAvg L.h R.h L.v R.v) sn cn - roeC g L.h R.h|
    (max 0 (2 * ((uperp R.u R.v sn cn - √g * √R.h) - (uperp L.u L.v sn cn - √g * √L.h))))
  a2 := |uperp (roeAvg L.h R.h L.u R.u) (roeAvg L.h R.h L.v R.v) sn cn|
  a3 := entropyFix |uperp (roeAvg L.h R.h L.u R.u) (roeAvg L.h R.h L.v R.v) sn cn + roeC g L.h R.h|
    (max 0 (2 * ((uperp R.u R.v sn cn + √g * √R.h) - (uperp L.u L.v sn cn + √g * √L.h))))
  w1 := 0.5 * ((R.h - L.h) - √L.h * √R.h * uperp (R.u - L.u) (R.v - L.v) sn cn / roeC g L.h R.h)
  w2 := √L.h * √R.h * (-(R.u - L.u) * sn + (R.v - L.v) * cn)
  w3 := 0.5 * ((R.h - L.h) + √L.h * √R.h * uperp (R.u - L.u) (R.v - L.v) sn cn / roeC g L.h R.h)
  uhat := roeAvg L.h R.h L.u R.u
  vhat := roeAvg L.h R.h L.v R.v
  chat := roeC g L.h R.h
  amax := roeC g L.h R.h + |uperp (roeAvg L.h R.h L.u R.u) (roeAvg L.h R.h L.v R.v) sn cn|

open Classical in
/-- `/repo/src/swe/swe_roe_flux_ceed.h:82-122` `SWERiemannFlux_Roe`; `dhv` is the change of depth along
the edge (0 unless well-balancing is enabled). -/
noncomputable def roeFluxCeed (g tinyH hAnuga : ℝ) (qL qR : Cons) (sn cn dhv : ℝ) :
    Option (Flux × ℝ) :=
  (velocitiesCeed tinyH hAnuga qL).bind fun L => (velocitiesCeed tinyH hAnuga qR).bind fun R =>
    if RoeDefined L.h R.h then
      let F := roeCombine (sideFlux g L sn cn) (sideFlux g R sn cn) (roeEigCeed g L R sn cn) sn cn
      some (⟨F.m, F.x + g * (dhv * dhv) / 24 * cn, F.y + g * (dhv * dhv) / 24 * sn⟩,
        (roeEigCeed g L R sn cn).amax)
    else none

/-- `/repo/src/swe/swe_fluxes_ceed.h:69-95` `SWEFlux`: the flux of an interior edge (before scaling
by length over area) and the wave speed; dry edges give zeros. Also Dirichlet boundaries (`:130-148`).
-/
noncomputable def edgeFluxCeed (g tinyH hAnuga : ℝ) (qL qR : Cons) (sn cn dhv : ℝ) :
    Option (Flux × ℝ) :=
  if qL.h > tinyH ∨ qR.h > tinyH then roeFluxCeed g tinyH hAnuga qL qR sn cn dhv
  else some (⟨0, 0, 0⟩, 0)

/-- `/repo/src/swe/swe_fluxes_ceed.h:176-204` `SWEBoundaryFlux_Reflecting`. -/
noncomputable def reflectFluxCeed (g tinyH hAnuga : ℝ) (qL : Cons) (sn cn dhv : ℝ) :
    Option (Flux × ℝ) :=
  if qL.h > tinyH then
    roeFluxCeed g tinyH hAnuga qL
      ⟨qL.h, qL.hu * (sn * sn - cn * cn) - qL.hv * (2 * sn * cn),
        -qL.hu * (2 * sn * cn) - qL.hv * (sn * sn - cn * cn)⟩ sn cn dhv
  else some (⟨0, 0, 0⟩, 0)

/-- `/repo/src/swe/swe_fluxes_ceed.h:229-263` `SWEBoundaryFlux_Outflow`. -/
noncomputable def outflowFluxCeed (g tinyH hAnuga : ℝ) (qL : Cons) (sn cn dhv : ℝ) :
    Option (Flux × ℝ) :=
  let q := qL.hu * cn + qL.hv * sn
  let hR := (|q| * |q| / g) ^ (1 / 3 : ℝ)
  if (qL.h > tinyH ∨ hR > tinyH) ∧ q ≥ 0 then
    roeFluxCeed g tinyH hAnuga qL ⟨hR, hR * √(g * hR) * cn, hR * √(g * hR) * sn⟩ sn cn dhv
  else some (⟨0, 0, 0⟩, 0)

end RDy
