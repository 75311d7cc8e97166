import Verif.Model.Tracer
import Verif.Model.Data
import Verif.Model.Config
import Mathlib.Analysis.SpecialFunctions.Log.Base

/-!
The method of manufactured solutions (`/repo/src/rdymms.c`), used by the drivers that verify the convergence
of the discretisation: manufactured solutions and their source terms, initial data, error norms, convergence
rates and the verdict.

The expressions of the configuration (parsed by muParser) are functions of position and time. They are evaluated
at lists of points; an evaluation has no other effect.
-/

namespace RDy

open Finset

/-- The expressions of `mms.swe` and `mms.sediment`
(`/repo/include/private/rdymmsconfigimpl.h:14-69`, `/repo/src/yaml_input.c:684-707`). Simplification: `n`, `z`,
`dzdx` and `dzdy` are functions of the position only, as documented; the code passes the time as well. -/
structure MmsFields where
  h : ℝ → ℝ → ℝ → ℝ
  dhdx : ℝ → ℝ → ℝ → ℝ
  dhdy : ℝ → ℝ → ℝ → ℝ
  dhdt : ℝ → ℝ → ℝ → ℝ
  u : ℝ → ℝ → ℝ → ℝ
  dudx : ℝ → ℝ → ℝ → ℝ
  dudy : ℝ → ℝ → ℝ → ℝ
  dudt : ℝ → ℝ → ℝ → ℝ
  v : ℝ → ℝ → ℝ → ℝ
  dvdx : ℝ → ℝ → ℝ → ℝ
  dvdy : ℝ → ℝ → ℝ → ℝ
  dvdt : ℝ → ℝ → ℝ → ℝ
  z : ℝ → ℝ → ℝ
  dzdx : ℝ → ℝ → ℝ
  dzdy : ℝ → ℝ → ℝ
  n : ℝ → ℝ → ℝ
  c : ℕ → ℝ → ℝ → ℝ → ℝ
  dcdx : ℕ → ℝ → ℝ → ℝ → ℝ
  dcdy : ℕ → ℝ → ℝ → ℝ → ℝ
  dcdt : ℕ → ℝ → ℝ → ℝ → ℝ

/-- `/repo/src/rdymms.c:16` `GRAVITY` -/
noncomputable def mmsGravity : ℝ := 9.806

/-- `/repo/src/rdymms.c:560`, `:617` `Cd` -/
noncomputable def mmsCd (F : MmsFields) (x y t : ℝ) : ℝ :=
  mmsGravity * (F.n x y * F.n x y) * F.h x y t ^ (-(1 : ℝ) / 3)

/-- `/repo/src/rdymms.c:562-576`: the sources of water and momentum at a point. -/
noncomputable def mmsSource (F : MmsFields) (x y t : ℝ) : Flux :=
  ⟨F.dhdt x y t + F.u x y t * F.dhdx x y t + F.h x y t * F.dudx x y t + F.v x y t * F.dhdy x y t +
      F.h x y t * F.dvdy x y t,
   F.u x y t * F.dhdt x y t + F.h x y t * F.dudt x y t +
      (2 * F.u x y t * F.h x y t * F.dudx x y t + F.u x y t * F.u x y t * F.dhdx x y t +
        mmsGravity * F.h x y t * F.dhdx x y t) +
      (F.u x y t * F.h x y t * F.dvdy x y t + F.v x y t * F.h x y t * F.dudy x y t +
        F.u x y t * F.v x y t * F.dhdy x y t) +
      F.dzdx x y * mmsGravity * F.h x y t +
      mmsCd F x y t * F.u x y t * √(F.u x y t * F.u x y t + F.v x y t * F.v x y t),
   F.v x y t * F.dhdt x y t + F.h x y t * F.dvdt x y t +
      (F.u x y t * F.h x y t * F.dvdx x y t + F.v x y t * F.h x y t * F.dudx x y t +
        F.u x y t * F.v x y t * F.dhdx x y t) +
      (F.v x y t * F.v x y t * F.dhdy x y t + 2 * F.v x y t * F.h x y t * F.dvdy x y t +
        mmsGravity * F.h x y t * F.dhdy x y t) +
      F.dzdy x y * mmsGravity * F.h x y t +
      mmsCd F x y t * F.v x y t * √(F.u x y t * F.u x y t + F.v x y t * F.v x y t)⟩

/-- `/repo/src/rdymms.c:604-623`: the source of sediment class `i` at a point. -/
noncomputable def mmsSediment (F : MmsFields) (i : ℕ) (x y t : ℝ) : ℝ :=
  F.c i x y t * F.dhdt x y t + F.h x y t * F.dcdt i x y t +
    (F.u x y t * F.c i x y t * F.dhdx x y t + F.h x y t * F.c i x y t * F.dudx x y t +
      F.u x y t * F.h x y t * F.dcdx i x y t) +
    (F.v x y t * F.c i x y t * F.dhdy x y t + F.h x y t * F.c i x y t * F.dvdy x y t +
      F.v x y t * F.h x y t * F.dcdy i x y t) +
    -(0.001 * (0.5 * 1000 * mmsCd F x y t * (F.u x y t * F.u x y t + F.v x y t * F.v x y t) - 0.1) / 0.1 -
      0.01 * F.c i x y t *
        (1 - 0.5 * 1000 * mmsCd F x y t * (F.u x y t * F.u x y t + F.v x y t * F.v x y t) / 1000))

/-! ### Sources in the cells -/

/-- `/repo/src/rdymms.c:495-509`, `:557-558`: the owned cells in the order in which they are visited. -/
def mmsOwned (pm : PMesh) : List ℕ := (List.range pm.numCells).filter fun c => pm.owned c

/-- Component `d` of the sources at a point (water, momentum, sediment classes).
`/repo/src/rdymms.c:562-623`. -/
noncomputable def mmsComponent (F : MmsFields) (t : ℝ) (d : ℕ) (p : ℝ × ℝ) : ℝ :=
  if d = 0 then (mmsSource F p.1 p.2 t).m
  else if d = 1 then (mmsSource F p.1 p.2 t).x
  else if d = 2 then (mmsSource F p.1 p.2 t).y
  else mmsSediment F (d - 3) p.1 p.2 t

/-- The calls of `RDySetRegionalWaterSource`, … with region ID 1 (`/repo/src/rdymms.c:579-581`, `:627`) for the
components `ds`, in order. `n` is the number of components of the source vector. -/
noncomputable def mmsSetComponents (n : ℕ) (regions : List SrcRegion) (pm : PMesh) (cent : ℕ → ℝ × ℝ)
    (F : MmsFields) (t : ℝ) : List ℕ → (ℕ → ℝ) → Res (ℕ → ℝ)
  | [], data => .ok data
  | d :: ds, data =>
    match setRegional n regions 1 d ((mmsOwned pm).map fun c => mmsComponent F t d (cent c)) data with
    | .ok data' => mmsSetComponents n regions pm cent F t ds data'
    | .error => .error
    | .ub => .ub

/-- `/repo/src/rdymms.c:489-706` `RDyMMSComputeSourceTerms` with `nc` sediment classes; `n` is the number of
components (3, the classes, and salinity and temperature, for which nothing is done, `:654`, `:674`). -/
noncomputable def mmsSetSources (n nc : ℕ) (regions : List SrcRegion) (pm : PMesh) (cent : ℕ → ℝ × ℝ)
    (F : MmsFields) (t : ℝ) (data : ℕ → ℝ) : Res (ℕ → ℝ) :=
  mmsSetComponents n regions pm cent F t (List.range (3 + nc)) data

/-- `/repo/src/rdymms.c:138-153` `MMSPreStep`: what is done before a step from `t` with step `dt`. -/
noncomputable def mmsPreStep (n nc : ℕ) (regions : List SrcRegion) (pm : PMesh) (cent : ℕ → ℝ × ℝ)
    (F : MmsFields) (t dt : ℝ) (data : ℕ → ℝ) : Res (ℕ → ℝ) :=
  mmsSetSources n nc regions pm cent F (t + 0.5 * dt) data

/-! ### Manufactured solution in the cells -/

/-- The concentration of tracer `i`: the `nc` sediment classes, then `extra`: salinity if it is on, temperature if
heat is on (`/repo/src/rdymms.c:424-478`). -/
def mmsConc (F : MmsFields) (nc : ℕ) (extra : List (ℝ → ℝ → ℝ → ℝ)) (i : ℕ) : ℝ → ℝ → ℝ → ℝ :=
  if i < nc then F.c i else extra.getD (i - nc) fun _ _ _ => 0

/-- Component `d` of the manufactured solution at a point (`/repo/src/rdymms.c:413-415`, `:432`, `:452`, `:470`). -/
noncomputable def mmsValue (F : MmsFields) (nc : ℕ) (extra : List (ℝ → ℝ → ℝ → ℝ)) (t : ℝ) (d : ℕ) (p : ℝ × ℝ) : ℝ :=
  if d = 0 then F.h p.1 p.2 t
  else if d = 1 then F.h p.1 p.2 t * F.u p.1 p.2 t
  else if d = 2 then F.h p.1 p.2 t * F.v p.1 p.2 t
  else F.h p.1 p.2 t * mmsConc F nc extra (d - 3) p.1 p.2 t

/-- `/repo/src/rdymms.c:379-387` and the evaluations that follow: entry `l` of the array of values at the cells of
the region whose number is less than a third of the local size; zero beyond them. -/
noncomputable def mmsBulk (nLocal : ℕ) (cells : List ℕ) (val : ℕ → ℝ) (l : ℕ) : ℝ :=
  ((cells.filter fun c => 3 * c < nLocal).map val).getD l 0

/-- `/repo/src/rdymms.c:407-436`: component `d` is written for the cells of the region that are not ghosts. -/
noncomputable def mmsFill (ndof nLocal : ℕ) (cells : List ℕ) (d : ℕ) (val : ℕ → ℝ) (x : ℕ → ℝ) : ℕ → ℝ :=
  fill x (cells.filter fun c => ndof * c < nLocal).zipIdx (fun p => ndof * p.1 + d)
    fun p => mmsBulk nLocal cells val p.2

/-- `/repo/src/rdymms.c:373-486`: all components of one region. -/
noncomputable def mmsFillRegion (ndof nLocal nc : ℕ) (extra : List (ℝ → ℝ → ℝ → ℝ)) (cent : ℕ → ℝ × ℝ)
    (F : MmsFields) (t : ℝ) (x : ℕ → ℝ) (cells : List ℕ) : ℕ → ℝ :=
  (List.range (3 + nc + extra.length)).foldl
    (fun x d => mmsFill ndof nLocal cells d (fun c => mmsValue F nc extra t d (cent c)) x) x

/-- `/repo/src/rdymms.c:352-486` `RDyMMSComputeSolution` for flow, `nc` sediment classes, and salinity and temperature
(`extra`, as far as they are on). -/
noncomputable def mmsSolution (ndof nLocal nc : ℕ) (extra : List (ℝ → ℝ → ℝ → ℝ)) (regions : List (List ℕ))
    (cent : ℕ → ℝ × ℝ) (F : MmsFields) (t : ℝ) : ℕ → ℝ :=
  regions.foldl (mmsFillRegion ndof nLocal nc extra cent F t) fun _ => 0

/-! ### Error norms -/

/-- What the norms use of the mesh of a process (`/repo/src/rdymms.c:871-873`). -/
structure ErrMesh where
  numOwned : ℕ
  o2l : ℕ → ℕ
  area : ℕ → ℝ

/-- `/repo/src/rdymms.c:858-859` `VecAYPX(error, -1, u_global)`: computed minus manufactured solution. -/
def mmsError (exact u : ℕ → ℝ) (i : ℕ) : ℝ := u i + -1 * exact i

/-- `/repo/src/rdymms.c:870-882`: the sums and the maximum of one component on one process; the state is `(L1, L2, Linf)`. -/
noncomputable def mmsLocalNorms (m : ErrMesh) (ndof d : ℕ) (e : ℕ → ℝ) : ℝ × ℝ × ℝ :=
  (List.range m.numOwned).foldl (fun s i =>
    (s.1 + |e (ndof * i + d)| * m.area (m.o2l i),
     s.2.1 + e (ndof * i + d) * e (ndof * i + d) * m.area (m.o2l i),
     max |e (ndof * i + d)| s.2.2)) (0, 0, 0)

/-- `MPI_Allreduce` with `MPI_MAX` over `n` processes of non-negative values (`/repo/src/rdymms.c:889`). -/
noncomputable def maxOver {n : ℕ} (v : Fin n → ℝ) : ℝ := (List.ofFn v).foldl max 0

/-- `/repo/src/rdymms.c:847-905` `RDyMMSComputeErrorNorms`: the norms of component `d`. -/
noncomputable def mmsNorms {n : ℕ} (m : Fin n → ErrMesh) (ndof d : ℕ) (e : Fin n → ℕ → ℝ) : ℝ × ℝ × ℝ :=
  (∑ p, (mmsLocalNorms (m p) ndof d (e p)).1, √(∑ p, (mmsLocalNorms (m p) ndof d (e p)).2.1),
    maxOver fun p => (mmsLocalNorms (m p) ndof d (e p)).2.2)

/-! ### Convergence rates and verdict -/

/-- `PetscLog10Real` of an error norm; `none` is infinite (of zero). `/repo/src/rdymms.c:973-982`. -/
noncomputable def log10? (x : ℝ) : Option ℝ := if x ≤ 0 then none else some (Real.logb 10 x)

/-- `PetscLinearRegression` (contract): the slope of the least-squares line; `none` (not a number) if the abscissas
are all the same. `/repo/src/rdymms.c:987-991`. -/
noncomputable def regressionSlope (xs ys : List ℝ) : Option ℝ :=
  if xs.length * (xs.map fun x => x * x).sum - xs.sum * xs.sum = 0 then none
  else some ((xs.length * (List.zipWith (· * ·) xs ys).sum - xs.sum * ys.sum) /
    (xs.length * (xs.map fun x => x * x).sum - xs.sum * xs.sum))

/-- `/repo/src/rdymms.c:972-995`: the rate of one component in one norm from the numbers of cells and the norms of
the levels; an infinite logarithm makes it not a number. -/
noncomputable def mmsRate (dim : ℕ) (cells : List ℕ) (norms : List ℝ) : Option ℝ :=
  match norms.mapM log10? with
  | none => none
  | some ys => (regressionSlope (cells.map fun N : ℕ => Real.logb 10 N) ys).map fun s => -s * dim

/-- Rates, or expected rates, of one component in the three norms.
`/repo/include/private/rdymmsconfigimpl.h:97-103`. -/
structure Rates where
  l1 : Option ℝ
  l2 : Option ℝ
  linf : Option ℝ

/-- `/repo/include/private/rdymmsconfigimpl.h:93-103` `RDyMMSConvergenceRates`; absent values are 0
(`/repo/src/yaml_input.c:716-724`, optional fields of a zeroed structure). -/
structure ExpectedRates where
  h : ℝ × ℝ × ℝ
  hu : ℝ × ℝ × ℝ
  hv : ℝ × ℝ × ℝ
  c : ℕ → ℝ × ℝ × ℝ
  S : ℝ × ℝ × ℝ
  T : ℝ × ℝ × ℝ

/-- `/repo/src/rdymms.c:1004-1008` `CheckConvergence`: no error is raised. -/
def checkRate (r : Option ℝ) (expected : ℝ) : Prop := ∃ x, r = some x ∧ ¬ x ≤ expected

/-- the three checks of one component. `/repo/src/rdymms.c:1026-1028`. -/
def checkRates (r : Rates) (e : ℝ × ℝ × ℝ) : Prop :=
  checkRate r.l1 e.1 ∧ checkRate r.l2 e.2.1 ∧ checkRate r.linf e.2.2

/-- `/repo/src/rdymms.c:1025-1040`: `PASS` is printed. -/
def mmsPass (numTracers : ℕ) (rates : ℕ → Rates) (e : ExpectedRates) : Prop :=
  checkRates (rates 0) e.h ∧ checkRates (rates 1) e.hu ∧ checkRates (rates 2) e.hv ∧
    ∀ i < numTracers, checkRates (rates (3 + i)) (e.c i)

/-! ### Times -/

/-- The time at which level `r` of a convergence study ends: `TSSolve` takes `stop_n` steps
(`/repo/src/rdysetup.c:1202-1209`, no final time is set) of `rdy->dt` at level 0, and of `time_step` without
conversion at the others (`/repo/src/rdymms.c:953-957`). `opt` is the option `-dt`. Non-adaptive runs. -/
noncomputable def mmsEnd (c : Cfg) (opt : Option ℝ) (r : ℕ) : Option ℝ :=
  if r = 0 then (overrideDt 0 opt c).map fun dt => c.stopN * dt else some (c.stopN * c.timeStep)

/-- `/repo/src/rdymms.c:924`, `:967`: the time of the manufactured solution that level `r` is compared with. -/
noncomputable def mmsEvalTime (c : Cfg) : ℝ := c.stop

end RDy
