import Verif.Model.Tracer
import Mathlib.Logic.Function.Basic

/-!
Model of the flux operators of the PETSc backend as they are written: every operator keeps arrays that
it allocates once and uses again at every evaluation (`/repo/src/swe/swe_petsc.c:7-73,219-316,341-407,507-688`,
`/repo/src/tracer/tracer_petsc.c:17-270,404-600`, `/repo/src/tracer/tracer_roe_flux_petsc.h`). All edges are gathered into
these arrays, velocities and fluxes are computed for all of them, and then the fluxes are added to the
cells. The models of `Operator.lean` and `Tracer.lean` treat one edge after the other instead.

An access outside an array is undefined: `none`. An entry of an array of results is an `Option ℝ`; there `none` is
NaN. Courant numbers (`amax`) are left out, see `Courant.lean`.
-/

namespace RDy

/-! ### Arrays -/

/-- a number that may be NaN (`none`), as in the arrays `fluxes` of `/repo/src/swe/swe_types_petsc.h:20-25` -/
abbrev Num := Option ℝ

/-- the sum of two numbers that may be NaN (`+=`, `/repo/src/swe/swe_petsc.c:298-307`) -/
def Num.add (a b : Num) : Num := a.bind fun x => b.map fun y => x + y

/-- the product of a number that may be NaN with a real number (`/repo/src/swe/swe_petsc.c:298-307`) -/
def Num.scale (a : Num) (s : ℝ) : Num := a.map fun x => x * s

/-- An array of C: its length and its entries (those beyond the length are not accessible).
`/repo/src/swe/swe_petsc.c:7-18`. -/
structure Arr (α : Type) where
  len : ℕ
  val : ℕ → α

/-- `a[i]`; undefined outside the array. `/repo/src/swe/swe_petsc.c:244-262`. -/
def Arr.get {α : Type} (a : Arr α) (i : ℕ) : Option α := if i < a.len then some (a.val i) else none

/-- `a[i] = x`; undefined outside the array. `/repo/src/swe/swe_petsc.c:244-262`. -/
def Arr.put {α : Type} (a : Arr α) (i : ℕ) (x : α) : Option (Arr α) :=
  if i < a.len then some ⟨a.len, Function.update a.val i x⟩ else none

/-- `PetscCalloc1(n, &a)`, `/repo/src/swe/swe_petsc.c:10-15` -/
def Arr.calloc {α : Type} (n : ℕ) (zero : α) : Arr α := ⟨n, fun _ => zero⟩

/-- an integer used as an index: a negative one is undefined. `/repo/src/swe/swe_petsc.c:246-247`. -/
def asIndex (z : ℤ) : Option ℕ := if 0 ≤ z then some z.toNat else none

/-- `for (k = 0; k < n; ++k) s = step(s, k);`, stopping at an undefined access.
`/repo/src/swe/swe_petsc.c:244`. -/
def loopM {σ : Type} (step : σ → ℕ → Option σ) : ℕ → σ → Option σ
  | 0, s => some s
  | n + 1, s => (loopM step n s).bind fun s' => step s' n

/-! ### Meshes -/

/-- The arrays of `RDyCells` and `RDyEdges` that the flux operators read
(`/repo/include/private/rdymeshimpl.h:26-202`): `internal_edge_ids`, `cell_ids` (two for each edge, `-1` for none), `lengths`, `sn`,
`cn` and `is_owned` of edges, `areas`, `is_owned` and `local_to_owned` of cells. -/
structure Tables where
  internal : Arr ℕ
  cellIds : Arr ℤ
  elen : Arr ℝ
  sn : Arr ℝ
  cn : Arr ℝ
  edgeOwned : Arr Bool
  area : Arr ℝ
  owned : Arr Bool
  l2o : Arr ℕ

/-! ### Arrays of the shallow-water operators -/

/-- One entry of each of the arrays `h`, `hu`, `hv`, `u`, `v` of a `RiemannStateData`, which have the same length and are
modelled as one array of records. `/repo/src/swe/swe_types_petsc.h:13-18`. -/
structure RState where
  h : ℝ
  hu : ℝ
  hv : ℝ
  u : ℝ
  v : ℝ

/-- an entry as allocated, `/repo/src/swe/swe_petsc.c:10-15` -/
def RState.zero : RState := ⟨0, 0, 0, 0, 0⟩

/-- what the Riemann solver reads of an entry. `/repo/src/swe/swe_roe_flux_petsc.h:94-100`. -/
def RState.prim (s : RState) : Prim := ⟨s.h, s.u, s.v⟩

/-- What a flux operator keeps between evaluations (`left_states`, `right_states`, `edges`,
`/repo/src/swe/swe_petsc.c:79-94`, `:413-430`). -/
structure Batch where
  left : Arr RState
  right : Arr RState
  sn : Arr ℝ
  cn : Arr ℝ
  flux : Arr Num

/-- `CreateRiemannStateData` and `CreateRiemannEdgeData` for `n` edges of three components,
`/repo/src/swe/swe_petsc.c:7-18,33-43` -/
def Batch.create (n : ℕ) : Batch :=
  ⟨Arr.calloc n RState.zero, Arr.calloc n RState.zero, Arr.calloc n 0, Arr.calloc n 0, Arr.calloc (n * 3) (some 0)⟩

/-- `/repo/src/swe/swe_petsc.c:390-401`: one edge of the loop that copies the normals (first order). -/
def normalStep (T : Tables) (b : Batch) (e : ℕ) : Option Batch :=
  (T.internal.get e).bind fun id =>
  (T.cellIds.get (2 * id + 1)).bind fun r =>
    if r ≠ -1 then
      (T.cn.get id).bind fun c => (b.cn.put e c).bind fun cn' =>
      (T.sn.get id).bind fun s => (b.sn.put e s).bind fun sn' => some { b with cn := cn', sn := sn' }
    else some b

/-- `/repo/src/swe/swe_petsc.c:341-407` `CreatePetscSWEInteriorFluxOperator` (first order) -/
def createInteriorB (T : Tables) : Option Batch := loopM (normalStep T) T.internal.len (Batch.create T.internal.len)

/-- `datal->h[e] = …; datal->hu[e] = …; datal->hv[e] = …;` with the entries of cell `c` in a vector of block size
`nd`. `/repo/src/swe/swe_petsc.c:249-254`. -/
def putState (nd : ℕ) (a : Arr RState) (e : ℕ) (u : Arr ℝ) (c : ℕ) : Option (Arr RState) :=
  (u.get (nd * c + 0)).bind fun h => (u.get (nd * c + 1)).bind fun hu => (u.get (nd * c + 2)).bind fun hv =>
    (a.get e).bind fun s => a.put e ⟨h, hu, hv, s.u, s.v⟩

/-- `/repo/src/swe/swe_petsc.c:244-256`: one edge of the loop that gathers the states. -/
def gatherStep (T : Tables) (u : Arr ℝ) (b : Batch) (e : ℕ) : Option Batch :=
  (T.internal.get e).bind fun id =>
  (T.cellIds.get (2 * id)).bind fun l =>
  (T.cellIds.get (2 * id + 1)).bind fun r =>
    if r ≠ -1 then
      (asIndex l).bind fun l' => (asIndex r).bind fun r' =>
      (putState 3 b.left e u l').bind fun L => (putState 3 b.right e u r').bind fun R =>
        some { b with left := L, right := R }
    else some b

/-- `/repo/src/swe/swe_petsc.c:61-70`: one entry of `ComputeRiemannVelocities`. -/
noncomputable def velocityStep (tinyH hAnuga : ℝ) (a : Arr RState) (n : ℕ) : Option (Arr RState) :=
  (a.get n).bind fun s =>
    if s.h < tinyH then a.put n { s with u := 0, v := 0 }
    else a.put n { s with u := s.hu * s.h / (s.h * s.h + hAnuga * hAnuga),
                          v := s.hv * s.h / (s.h * s.h + hAnuga * hAnuga) }

/-- `/repo/src/swe/swe_petsc.c:57-73` `ComputeRiemannVelocities` -/
noncomputable def velocitiesB (tinyH hAnuga : ℝ) (a : Arr RState) : Option (Arr RState) :=
  loopM (velocityStep tinyH hAnuga) a.len a

/-- component `i` of a flux: 0 mass, 1 and 2 momentum. `/repo/src/swe/swe_roe_flux_petsc.h:123-126`. -/
def Flux.comp (F : Flux) (i : ℕ) : ℝ := if i = 0 then F.m else if i = 1 then F.x else F.y

/-- `/repo/src/swe/swe_roe_flux_petsc.h:104-127`: one edge of `ComputeSWERoeFlux`, writing to `fij`. -/
noncomputable def roeStep (g : ℝ) (L R : Arr RState) (sn cn : Arr ℝ) (fij : Arr Num) (i : ℕ) : Option (Arr Num) :=
  (L.get i).bind fun l => (R.get i).bind fun r => (sn.get i).bind fun s => (cn.get i).bind fun c =>
    loopM (fun (f : Arr Num) (d : ℕ) =>
      f.put (3 * i + d) ((roeFlux g l.prim r.prim s c).map fun F => F.1.comp d)) 3 fij

/-- `/repo/src/swe/swe_roe_flux_petsc.h:90-131` `ComputeSWERoeFlux` -/
noncomputable def roeB (g : ℝ) (L R : Arr RState) (sn cn : Arr ℝ) (fij : Arr Num) : Option (Arr Num) :=
  loopM (roeStep g L R sn cn) L.len fij

/-- `f_ptr[nd * o + i] += flux[nd * e + i] * s`, `/repo/src/swe/swe_petsc.c:300,304` -/
def addEntry (nd : ℕ) (flux : Arr Num) (e o : ℕ) (s : ℝ) (i : ℕ) (f : Arr Num) : Option (Arr Num) :=
  (f.get (nd * o + i)).bind fun x => (flux.get (nd * e + i)).bind fun y => f.put (nd * o + i) (x.add (y.scale s))

/-- `if (cells->is_owned[c]) { … f_ptr[…] += … }`, `/repo/src/swe/swe_petsc.c:298-305` -/
def addIfOwned (nd : ℕ) (T : Tables) (flux : Arr Num) (e c : ℕ) (s : ℝ) (i : ℕ) (f : Arr Num) : Option (Arr Num) :=
  (T.owned.get c).bind fun w =>
    if w then (T.l2o.get c).bind fun o => addEntry nd flux e o s i f else some f

/-- `/repo/src/swe/swe_petsc.c:285-307` (and `/repo/src/tracer/tracer_petsc.c:237-261`): both cells of a wet edge receive
its flux, component by component. -/
noncomputable def addToCells (nd : ℕ) (T : Tables) (flux : Arr Num) (e id l r : ℕ) (f : Arr Num) : Option (Arr Num) :=
  (T.elen.get id).bind fun len => (T.area.get l).bind fun al => (T.area.get r).bind fun ar =>
    loopM (fun (f : Arr Num) (i : ℕ) =>
      (addIfOwned nd T flux e l (-len / al) i f).bind (addIfOwned nd T flux e r (len / ar) i)) nd f

/-- `/repo/src/swe/swe_petsc.c:275-310`: one edge of the loop that adds the fluxes. -/
noncomputable def addStep (P : FlowParams) (T : Tables) (b : Batch) (f : Arr Num) (e : ℕ) : Option (Arr Num) :=
  (T.internal.get e).bind fun id =>
  (T.cellIds.get (2 * id)).bind fun l =>
  (T.cellIds.get (2 * id + 1)).bind fun r =>
    if r ≠ -1 then
      (asIndex l).bind fun l' => (asIndex r).bind fun r' =>
      (b.left.get e).bind fun L => (b.right.get e).bind fun R =>
        if R.h < P.tinyH ∧ L.h < P.tinyH then some f else addToCells 3 T b.flux e id l' r' f
    else some f

/-- `/repo/src/swe/swe_petsc.c:219-316` `ApplyInteriorFlux`: what is kept, and the right-hand side. -/
noncomputable def applyInteriorB (P : FlowParams) (T : Tables) (b : Batch) (u : Arr ℝ) (f : Arr Num) :
    Option (Batch × Arr Num) :=
  (loopM (gatherStep T u) T.internal.len b).bind fun b1 =>
  (velocitiesB P.tinyH P.hAnuga b1.left).bind fun L =>
  (velocitiesB P.tinyH P.hAnuga b1.right).bind fun R =>
  (roeB P.g L R b1.sn b1.cn b1.flux).bind fun F =>
  (loopM (addStep P T ⟨L, R, b1.sn, b1.cn, F⟩) T.internal.len f).map fun f' => (⟨L, R, b1.sn, b1.cn, F⟩, f')

/-! ### Boundaries -/

/-- the type of a flow condition, `/repo/src/swe/swe_petsc.c:553-573` -/
inductive BType
  | dirichlet
  | reflecting
  | outflow

/-- What belongs to one boundary besides its arrays: `edge_ids`, the type of its condition and `boundary_values`.
`/repo/src/swe/swe_petsc.c:413-430`. -/
structure Bnd where
  ids : Arr ℕ
  type : BType
  values : Arr ℝ

/-- What the operator of a boundary changes: its arrays, `boundary_fluxes` and `boundary_fluxes_accum`.
`/repo/src/swe/swe_petsc.c:413-430`. -/
structure BState where
  batch : Batch
  fluxes : Arr Num
  accum : Arr Num

/-- `/repo/src/swe/swe_petsc.c:677-682`: one edge of the loop that copies the normals of a boundary. -/
def bNormalStep (T : Tables) (B : Bnd) (b : Batch) (e : ℕ) : Option Batch :=
  (B.ids.get e).bind fun id =>
    (T.cn.get id).bind fun c => (b.cn.put e c).bind fun cn' =>
    (T.sn.get id).bind fun s => (b.sn.put e s).bind fun sn' => some { b with cn := cn', sn := sn' }

/-- `/repo/src/swe/swe_petsc.c:653-688` `CreatePetscSWEBoundaryFluxOperator`, with the vectors of
`/repo/src/operator.c:117-130` -/
def createBoundaryB (T : Tables) (B : Bnd) : Option BState :=
  (loopM (bNormalStep T B) B.ids.len (Batch.create B.ids.len)).map fun b =>
    ⟨b, Arr.calloc (3 * B.ids.len) (some 0), Arr.calloc (3 * B.ids.len) (some 0)⟩

/-- `/repo/src/swe/swe_petsc.c:542-548`: one edge of the loop that gathers the left states. -/
def bGatherStep (T : Tables) (B : Bnd) (u : Arr ℝ) (a : Arr RState) (e : ℕ) : Option (Arr RState) :=
  (B.ids.get e).bind fun id => (T.cellIds.get (2 * id)).bind fun l => (asIndex l).bind fun l' => putState 3 a e u l'

/-- `/repo/src/swe/swe_petsc.c:445-459`: one edge of `ApplyReflectingBC`. -/
def reflectStep (T : Tables) (B : Bnd) (L : Arr RState) (sn cn : Arr ℝ) (R : Arr RState) (e : ℕ) : Option (Arr RState) :=
  (B.ids.get e).bind fun id => (T.cellIds.get (2 * id)).bind fun l => (asIndex l).bind fun l' =>
  (T.owned.get l').bind fun w =>
    if w then
      (L.get e).bind fun s => (R.get e).bind fun r => (sn.get e).bind fun s' => (cn.get e).bind fun c' =>
        R.put e { r with h := s.h, u := s.u * (s' * s' - c' * c') - s.v * (2 * s' * c'),
                         v := -s.u * (2 * s' * c') - s.v * (s' * s' - c' * c') }
    else some R

/-- `/repo/src/swe/swe_petsc.c:476-502`: one edge of `ApplyCriticalOutflowBC`. -/
noncomputable def outflowStep (g : ℝ) (T : Tables) (B : Bnd) (sn cn : Arr ℝ) (s : Arr RState × Arr RState) (e : ℕ) :
    Option (Arr RState × Arr RState) :=
  (B.ids.get e).bind fun id => (T.cellIds.get (2 * id)).bind fun l => (asIndex l).bind fun l' =>
  (T.owned.get l').bind fun w =>
    if w then
      (s.1.get e).bind fun L => (s.2.get e).bind fun R => (sn.get e).bind fun s' => (cn.get e).bind fun c' =>
        if L.u * c' + L.v * s' < 0 then
          (s.1.put e { L with h := 0, u := 0, v := 0 }).bind fun a =>
          (s.2.put e { R with h := 0, u := 0, v := 0 }).map fun b => (a, b)
        else
          (s.2.put e { R with
            h := (L.h * |L.u * c' + L.v * s'| * (L.h * |L.u * c' + L.v * s'|) / g) ^ (1 / 3 : ℝ),
            u := √(g * (L.h * |L.u * c' + L.v * s'| * (L.h * |L.u * c' + L.v * s'|) / g) ^ (1 / 3 : ℝ)) * c',
            v := √(g * (L.h * |L.u * c' + L.v * s'| * (L.h * |L.u * c' + L.v * s'|) / g) ^ (1 / 3 : ℝ)) * s' }).map
              fun b => (s.1, b)
    else some s

/-- `/repo/src/swe/swe_petsc.c:553-573`: the states of both sides according to the condition. -/
noncomputable def bConditionB (P : FlowParams) (T : Tables) (B : Bnd) (sn cn : Arr ℝ) (L R : Arr RState) :
    Option (Arr RState × Arr RState) :=
  match B.type with
  | .dirichlet =>
    (loopM (fun (a : Arr RState) (e : ℕ) => putState 3 a e B.values e) B.ids.len R).bind fun R1 =>
      (velocitiesB P.tinyH P.hAnuga R1).map fun R2 => (L, R2)
  | .reflecting => (loopM (reflectStep T B L sn cn) B.ids.len R).map fun R1 => (L, R1)
  | .outflow => loopM (outflowStep P.g T B sn cn) B.ids.len (L, R)

/-- `/repo/src/swe/swe_petsc.c:587-612`: one edge of the loop that adds the fluxes of a boundary. -/
noncomputable def bAddStep (P : FlowParams) (T : Tables) (B : Bnd) (L R : Arr RState) (flux : Arr Num) (f : Arr Num)
    (e : ℕ) : Option (Arr Num) :=
  (B.ids.get e).bind fun id => (T.elen.get id).bind fun len => (T.cellIds.get (2 * id)).bind fun l =>
  (asIndex l).bind fun l' => (T.owned.get l').bind fun w =>
    if w then
      (T.area.get l').bind fun a => (L.get e).bind fun sl => (R.get e).bind fun sr =>
        if sl.h < P.tinyH ∧ sr.h < P.tinyH then some f
        else (T.l2o.get l').bind fun o =>
          loopM (fun (f : Arr Num) (i : ℕ) => addEntry 3 flux e o (-len / a) i f) 3 f
    else some f

/-- `VecAXPY(accum, dt, fluxes)`, `/repo/src/swe/swe_petsc.c:623` (two vectors of the same length) -/
def axpyB (dt : ℝ) (fluxes accum : Arr Num) : Arr Num :=
  ⟨accum.len, fun i => (accum.val i).add ((fluxes.val i).scale dt)⟩

/-- `/repo/src/swe/swe_petsc.c:507-630` `ApplyBoundaryFlux`: what is kept, and the right-hand side. -/
noncomputable def applyBoundaryB (P : FlowParams) (T : Tables) (B : Bnd) (dt : ℝ) (s : BState) (u : Arr ℝ)
    (f : Arr Num) : Option (BState × Arr Num) :=
  (loopM (bGatherStep T B u) B.ids.len s.batch.left).bind fun L1 =>
  (velocitiesB P.tinyH P.hAnuga L1).bind fun L2 =>
  (bConditionB P T B s.batch.sn s.batch.cn L2 s.batch.right).bind fun LR =>
  (roeB P.g LR.1 LR.2 s.batch.sn s.batch.cn s.fluxes).bind fun F =>
  (loopM (bAddStep P T B LR.1 LR.2 F) B.ids.len f).map fun f' =>
    (⟨{ s.batch with left := LR.1, right := LR.2 }, F, axpyB dt F s.accum⟩, f')

/-- What all flux operators of a run keep: that for the interior, and one for each boundary (the sub-operators of
`/repo/src/operator_fluxes_petsc.c:17-54`). -/
structure FluxMem where
  interior : Batch
  bnds : List BState

/-- the boundaries one after the other, `/repo/src/petsc_operator.c:53-60` `PetscOperatorCompositeApply` -/
noncomputable def applyBoundariesB (P : FlowParams) (T : Tables) (dt : ℝ) (u : Arr ℝ) :
    List Bnd → List BState → Arr Num → Option (List BState × Arr Num)
  | B :: Bs, s :: ss, f =>
    (applyBoundaryB P T B dt s u f).bind fun r =>
      (applyBoundariesB P T dt u Bs ss r.2).map fun q => (r.1 :: q.1, q.2)
  | _, _, f => some ([], f)

/-- One evaluation of all fluxes into a zeroed vector of `n` cells (`/repo/src/rdysetup.c:1130`,
`/repo/src/operator.c:656-664`). -/
noncomputable def fluxesB (P : FlowParams) (T : Tables) (Bs : List Bnd) (n : ℕ) (dt : ℝ) (M : FluxMem) (u : Arr ℝ) :
    Option (FluxMem × Arr Num) :=
  (applyInteriorB P T M.interior u (Arr.calloc (3 * n) (some 0))).bind fun r =>
    (applyBoundariesB P T dt u Bs M.bnds r.2).map fun q => (⟨r.1, q.1⟩, q.2)

/-- A sequence of evaluations, each with its step and state: the results.
`/repo/src/rdysetup.c:1120-1142`. -/
noncomputable def evaluationsB (P : FlowParams) (T : Tables) (Bs : List Bnd) (n : ℕ) :
    FluxMem → List (ℝ × Arr ℝ) → Option (FluxMem × List (Arr Num))
  | M, [] => some (M, [])
  | M, (dt, u) :: rest =>
    (fluxesB P T Bs n dt M u).bind fun r =>
      (evaluationsB P T Bs n r.1 rest).map fun q => (q.1, r.2 :: q.2)

/-! ### Operators with tracers -/

/-- `MAX_NUM_FIELD_COMPONENTS` (`/repo/CMakeLists.txt:19-22`: 3 for the flow, 5 sediment classes, salinity and temperature;
the local arrays at `/repo/src/tracer/tracer_roe_flux_petsc.h:40-46` have this size). -/
def maxFieldComponents : ℕ := 10

/-- One side of the edges of an operator with tracers: `h`, `hu`, `hv`, `u`, `v` (as one array of records), and the flat
arrays `hci` and `ci`. `/repo/src/tracer/tracer_types_petsc.h:11-17`. -/
structure TSide where
  st : Arr RState
  hci : Arr ℝ
  ci : Arr ℝ

/-- `/repo/src/tracer/tracer_petsc.c:17-35` `CreateTracerRiemannStateData` -/
def TSide.create (n nt : ℕ) : TSide := ⟨Arr.calloc n RState.zero, Arr.calloc (n * nt) 0, Arr.calloc (n * nt) 0⟩

/-- What a flux operator with tracers keeps between evaluations (`/repo/src/tracer/tracer_petsc.c:134-142`, `:337-351`). -/
structure TBatch where
  left : TSide
  right : TSide
  sn : Arr ℝ
  cn : Arr ℝ
  flux : Arr Num

/-- `CreateTracerRiemannStateData` and `CreateTracerRiemannEdgeData`, `/repo/src/tracer/tracer_petsc.c:17-35,83-99` -/
def TBatch.create (n nt : ℕ) : TBatch :=
  ⟨TSide.create n nt, TSide.create n nt, Arr.calloc n 0, Arr.calloc n 0, Arr.calloc (n * (3 + nt)) (some 0)⟩

/-- `/repo/src/tracer/tracer_petsc.c:318-326`: one edge of the loop that copies the normals. -/
def tNormalStep (T : Tables) (b : TBatch) (e : ℕ) : Option TBatch :=
  (T.internal.get e).bind fun id =>
  (T.cellIds.get (2 * id + 1)).bind fun r =>
    if r ≠ -1 then
      (T.cn.get id).bind fun c => (b.cn.put e c).bind fun cn' =>
      (T.sn.get id).bind fun s => (b.sn.put e s).bind fun sn' => some { b with cn := cn', sn := sn' }
    else some b

/-- `/repo/src/tracer/tracer_petsc.c:293-331` `CreatePetscTracerInteriorFluxOperator` -/
def createTracerInteriorB (T : Tables) (nt : ℕ) : Option TBatch :=
  loopM (tNormalStep T) T.internal.len (TBatch.create T.internal.len nt)

/-- `/repo/src/tracer/tracer_petsc.c:191-202` (and `:442-449`, `:459-466`): the entries of block `c` of a vector become the state
of edge `e` of one side. In the interior the entries of both sides are written in turn, which is the same. -/
def tPutState (nt : ℕ) (a : TSide) (e : ℕ) (u : Arr ℝ) (c : ℕ) : Option TSide :=
  (putState (3 + nt) a.st e u c).bind fun st =>
    (loopM (fun (h : Arr ℝ) (s : ℕ) => (u.get ((3 + nt) * c + 3 + s)).bind fun x => h.put (e * nt + s) x) nt a.hci).map
      fun hci => { a with st := st, hci := hci }

/-- `/repo/src/tracer/tracer_petsc.c:185-205`: one edge of the loop that gathers the states. -/
def tGatherStep (nt : ℕ) (T : Tables) (u : Arr ℝ) (b : TBatch) (e : ℕ) : Option TBatch :=
  (T.internal.get e).bind fun id =>
  (T.cellIds.get (2 * id)).bind fun l =>
  (T.cellIds.get (2 * id + 1)).bind fun r =>
    if r ≠ -1 then
      (asIndex l).bind fun l' => (asIndex r).bind fun r' =>
      (tPutState nt b.left e u l').bind fun L => (tPutState nt b.right e u r').bind fun R =>
        some { b with left := L, right := R }
    else some b

/-- `/repo/src/tracer/tracer_petsc.c:109-124`: one entry of `ComputeRiemannVelocitiesAndConcentration`. -/
noncomputable def tVelocityStep (tinyH : ℝ) (nt : ℕ) (a : TSide) (n : ℕ) : Option TSide :=
  (a.st.get n).bind fun s =>
    if s.h < tinyH then
      (a.st.put n { s with u := 0, v := 0 }).bind fun st =>
        (loopM (fun (c : Arr ℝ) (j : ℕ) => c.put (n * nt + j) 0) nt a.ci).map fun ci => { a with st := st, ci := ci }
    else
      (a.st.put n { s with u := s.hu / s.h, v := s.hv / s.h }).bind fun st =>
        (loopM (fun (c : Arr ℝ) (j : ℕ) => (a.hci.get (n * nt + j)).bind fun x => c.put (n * nt + j) (x / s.h)) nt a.ci).map
          fun ci => { a with st := st, ci := ci }

/-- `/repo/src/tracer/tracer_petsc.c:105-128` `ComputeRiemannVelocitiesAndConcentration` -/
noncomputable def tVelocitiesB (tinyH : ℝ) (nt : ℕ) (a : TSide) : Option TSide :=
  loopM (tVelocityStep tinyH nt) a.st.len a

/-- the concentrations of edge `i` of one side, `cil[ci_index_offset + j]`
(`/repo/src/tracer/tracer_roe_flux_petsc.h:59-64`); `none` if one of them is outside the array -/
def tConc (nt : ℕ) (a : TSide) (i : ℕ) : Option (ℕ → ℝ) :=
  if ∀ j < nt, i * nt + j < a.ci.len then some fun j => a.ci.val (i * nt + j) else none

open Classical in
/-- what `ComputeSWERoeEigenspectrum` returns, NaN (`none`) if a depth is negative or both are 0.
`/repo/src/tracer/tracer_roe_flux_petsc.h:49-51`. -/
noncomputable def eigOf (g : ℝ) (L R : Prim) (sn cn : ℝ) : Option RoeEig :=
  if RoeDefined L.h R.h then some (roeEig g L R sn cn) else none

/-- `/repo/src/tracer/tracer_roe_flux_petsc.h:66-75`: the entries of the matrix `R` that are assigned for an edge; the others keep
what they were before. -/
noncomputable def matrixStep (nt : ℕ) (e : Option RoeEig) (sn cn : ℝ) (chat : ℕ → ℝ) (Rm : ℕ → ℕ → Num) (i j : ℕ) : Num :=
  if i < 3 ∧ j < 3 then e.map fun e => sweR e sn cn i j
  else if 3 ≤ i ∧ i < 3 + nt ∧ (j = 0 ∨ j = 2) then e.map fun _ => chat (i - 3)
  else if 3 ≤ i ∧ i < 3 + nt ∧ j = i then some 1
  else Rm i j

/-- `/repo/src/tracer/tracer_roe_flux_petsc.h:77-114`: component `i` of the flux of an edge, with the matrix `Rm`. The arrays `cihat`,
`dch`, `A`, `dW`, `FL` and `FR` are assigned for every edge before they are read, and are not modelled as kept. -/
noncomputable def matrixFlux (g : ℝ) (nt : ℕ) (L R : TPrim) (e : Option RoeEig) (sn cn : ℝ) (Rm : ℕ → ℕ → Num) (i : ℕ) : Num :=
  (List.range (3 + nt)).foldl (fun (x : Num) (d : ℕ) => x.add ((Rm i d).bind fun r => e.map fun e =>
    -(0.5 * r * tracerA e d * tracerW e L R d))) (some (0.5 * (tracerSide g L sn cn i + tracerSide g R sn cn i)))

/-- `/repo/src/tracer/tracer_roe_flux_petsc.h:48-117`, `:152-206`: one edge of `ComputeTracerRoeFlux` (with the matrix that is kept from
edge to edge) or `ComputeUpwindTracerRoeFlux`. -/
noncomputable def tRoeStep (sv : TSolver) (g : ℝ) (nt : ℕ) (L R : TSide) (sn cn : Arr ℝ) (s : (ℕ → ℕ → Num) × Arr Num) (i : ℕ) :
    Option ((ℕ → ℕ → Num) × Arr Num) :=
  (L.st.get i).bind fun l => (R.st.get i).bind fun r => (sn.get i).bind fun sv' => (cn.get i).bind fun cv =>
  (tConc nt L i).bind fun cl => (tConc nt R i).bind fun cr =>
    match sv with
    | .roe =>
      (loopM (fun (f : Arr Num) (d : ℕ) => f.put ((3 + nt) * i + d)
        (matrixFlux g nt ⟨l.prim, cl⟩ ⟨r.prim, cr⟩ (eigOf g l.prim r.prim sv' cv) sv' cv
          (matrixStep nt (eigOf g l.prim r.prim sv' cv) sv' cv (tracerChat ⟨l.prim, cl⟩ ⟨r.prim, cr⟩) s.1) d)) (3 + nt) s.2).map
        fun f => (matrixStep nt (eigOf g l.prim r.prim sv' cv) sv' cv (tracerChat ⟨l.prim, cl⟩ ⟨r.prim, cr⟩) s.1, f)
    | .upwind =>
      (loopM (fun (f : Arr Num) (d : ℕ) => f.put ((3 + nt) * i + d)
        ((eigOf g l.prim r.prim sv' cv).map fun e => upwindCombine g ⟨l.prim, cl⟩ ⟨r.prim, cr⟩ e sv' cv d)) (3 + nt) s.2).map
        fun f => (s.1, f)

/-- `/repo/src/tracer/tracer_roe_flux_petsc.h:17-119`, `:129-208`: all edges; undefined if there are more components than fit into the
local arrays. -/
noncomputable def tRoeB (sv : TSolver) (g : ℝ) (nt : ℕ) (L R : TSide) (sn cn : Arr ℝ) (fij : Arr Num) : Option (Arr Num) :=
  if 3 + nt ≤ maxFieldComponents then
    (loopM (tRoeStep sv g nt L R sn cn) L.st.len (fun _ _ => some 0, fij)).map Prod.snd
  else none

/-- `/repo/src/tracer/tracer_petsc.c:226-263`: one edge of the loop that adds the fluxes; the depths are read from the vector. -/
noncomputable def tAddStep (P : FlowParams) (nt : ℕ) (T : Tables) (u : Arr ℝ) (flux : Arr Num) (f : Arr Num) (e : ℕ) :
    Option (Arr Num) :=
  (T.internal.get e).bind fun id =>
  (T.cellIds.get (2 * id)).bind fun l =>
  (T.cellIds.get (2 * id + 1)).bind fun r =>
    if r ≠ -1 then
      (asIndex l).bind fun l' => (asIndex r).bind fun r' =>
      (u.get ((3 + nt) * l' + 0)).bind fun hl => (u.get ((3 + nt) * r' + 0)).bind fun hr =>
        if hr < P.tinyH ∧ hl < P.tinyH then some f else addToCells (3 + nt) T flux e id l' r' f
    else some f

/-- `/repo/src/tracer/tracer_petsc.c:152-270` `ApplyTracerInteriorFlux` for a vector of block size `3 + nt` (checked at `:180-182`) -/
noncomputable def applyTracerInteriorB (sv : TSolver) (P : FlowParams) (nt : ℕ) (T : Tables) (b : TBatch) (u : Arr ℝ)
    (f : Arr Num) : Option (TBatch × Arr Num) :=
  (loopM (tGatherStep nt T u) T.internal.len b).bind fun b1 =>
  (tVelocitiesB P.tinyH nt b1.left).bind fun L =>
  (tVelocitiesB P.tinyH nt b1.right).bind fun R =>
  (tRoeB sv P.g nt L R b1.sn b1.cn b1.flux).bind fun F =>
  (loopM (tAddStep P nt T u F) T.internal.len f).map fun f' => (⟨L, R, b1.sn, b1.cn, F⟩, f')

/-- The type of a flow condition that the tracer operator accepts (`/repo/src/tracer/tracer_petsc.c:456-479`). -/
inductive TBType
  | dirichlet
  | reflecting

/-- What belongs to one boundary besides its arrays, in a run with tracers. `/repo/src/tracer/tracer_petsc.c:337-351`. -/
structure TBnd where
  ids : Arr ℕ
  type : TBType
  values : Arr ℝ

/-- What the operator of a boundary changes in a run with tracers: its arrays and `boundary_fluxes` (no fluxes are accumulated).
`/repo/src/tracer/tracer_petsc.c:337-351`. -/
structure TBState where
  batch : TBatch
  fluxes : Arr Num

/-- `/repo/src/tracer/tracer_petsc.c:582-586`: one edge of the loop that copies the normals of a boundary. -/
def tbNormalStep (T : Tables) (B : TBnd) (b : TBatch) (e : ℕ) : Option TBatch :=
  (B.ids.get e).bind fun id =>
    (T.cn.get id).bind fun c => (b.cn.put e c).bind fun cn' =>
    (T.sn.get id).bind fun s => (b.sn.put e s).bind fun sn' => some { b with cn := cn', sn := sn' }

/-- `/repo/src/tracer/tracer_petsc.c:551-590` `CreatePetscTracerBoundaryFluxOperator`, with the vector of
`/repo/src/operator.c:117-130` -/
def createTracerBoundaryB (T : Tables) (nt : ℕ) (B : TBnd) : Option TBState :=
  (loopM (tbNormalStep T B) B.ids.len (TBatch.create B.ids.len nt)).map fun b =>
    ⟨b, Arr.calloc ((3 + nt) * B.ids.len) (some 0)⟩

/-- `/repo/src/tracer/tracer_petsc.c:439-450`: one edge of the loop that gathers the left states. -/
def tbGatherStep (nt : ℕ) (T : Tables) (B : TBnd) (u : Arr ℝ) (a : TSide) (e : ℕ) : Option TSide :=
  (B.ids.get e).bind fun id => (T.cellIds.get (2 * id)).bind fun l => (asIndex l).bind fun l' => tPutState nt a e u l'

/-- `/repo/src/tracer/tracer_petsc.c:374-392`: one edge of `ApplyTracerReflectingBC`. -/
def tReflectStep (nt : ℕ) (T : Tables) (B : TBnd) (L : TSide) (sn cn : Arr ℝ) (R : TSide) (e : ℕ) : Option TSide :=
  (B.ids.get e).bind fun id => (T.cellIds.get (2 * id)).bind fun l => (asIndex l).bind fun l' =>
  (T.owned.get l').bind fun w =>
    if w then
      (L.st.get e).bind fun s => (R.st.get e).bind fun r => (sn.get e).bind fun s' => (cn.get e).bind fun c' =>
        (R.st.put e { r with h := s.h, u := s.u * (s' * s' - c' * c') - s.v * (2 * s' * c'),
                             v := -s.u * (2 * s' * c') - s.v * (s' * s' - c' * c') }).bind fun st =>
        (loopM (fun (c : Arr ℝ) (j : ℕ) => (L.ci.get (e * nt + j)).bind fun x => c.put (e * nt + j) x) nt R.ci).map fun ci =>
          { R with st := st, ci := ci }
    else some R

/-- `/repo/src/tracer/tracer_petsc.c:455-479`: the right states according to the condition. -/
noncomputable def tConditionB (P : FlowParams) (nt : ℕ) (T : Tables) (B : TBnd) (sn cn : Arr ℝ) (L R : TSide) : Option TSide :=
  match B.type with
  | .dirichlet =>
    (loopM (fun (a : TSide) (e : ℕ) => tPutState nt a e B.values e) B.ids.len R).bind (tVelocitiesB P.tinyH nt)
  | .reflecting => loopM (tReflectStep nt T B L sn cn) B.ids.len R

/-- `/repo/src/tracer/tracer_petsc.c:496-523`: one edge of the loop that adds the fluxes of a boundary. -/
noncomputable def tbAddStep (P : FlowParams) (nt : ℕ) (T : Tables) (B : TBnd) (L R : TSide) (flux : Arr Num) (f : Arr Num)
    (e : ℕ) : Option (Arr Num) :=
  (B.ids.get e).bind fun id => (T.elen.get id).bind fun len => (T.cellIds.get (2 * id)).bind fun l =>
  (asIndex l).bind fun l' => (T.owned.get l').bind fun w =>
    if w then
      (T.area.get l').bind fun a => (L.st.get e).bind fun sl => (R.st.get e).bind fun sr =>
        if sl.h < P.tinyH ∧ sr.h < P.tinyH then some f
        else (T.l2o.get l').bind fun o =>
          loopM (fun (f : Arr Num) (i : ℕ) => addEntry (3 + nt) flux e o (-len / a) i f) (3 + nt) f
    else some f

/-- `/repo/src/tracer/tracer_petsc.c:405-530` `ApplyTracerBoundaryFlux` for a vector of block size `3 + nt` (checked at `:434-436`) -/
noncomputable def applyTracerBoundaryB (sv : TSolver) (P : FlowParams) (nt : ℕ) (T : Tables) (B : TBnd) (s : TBState) (u : Arr ℝ)
    (f : Arr Num) : Option (TBState × Arr Num) :=
  (loopM (tbGatherStep nt T B u) B.ids.len s.batch.left).bind fun L1 =>
  (tVelocitiesB P.tinyH nt L1).bind fun L =>
  (tConditionB P nt T B s.batch.sn s.batch.cn L s.batch.right).bind fun R =>
  (tRoeB sv P.g nt L R s.batch.sn s.batch.cn s.fluxes).bind fun F =>
  (loopM (tbAddStep P nt T B L R F) B.ids.len f).map fun f' => (⟨{ s.batch with left := L, right := R }, F⟩, f')

/-- What all flux operators of a run with tracers keep (`/repo/src/operator_fluxes_petsc.c:17-54`). -/
structure TFluxMem where
  interior : TBatch
  bnds : List TBState

/-- the boundaries one after the other, `/repo/src/petsc_operator.c:53-60` `PetscOperatorCompositeApply` -/
noncomputable def applyTracerBoundariesB (sv : TSolver) (P : FlowParams) (nt : ℕ) (T : Tables) (u : Arr ℝ) :
    List TBnd → List TBState → Arr Num → Option (List TBState × Arr Num)
  | B :: Bs, s :: ss, f =>
    (applyTracerBoundaryB sv P nt T B s u f).bind fun r =>
      (applyTracerBoundariesB sv P nt T u Bs ss r.2).map fun q => (r.1 :: q.1, q.2)
  | _, _, f => some ([], f)

/-- One evaluation of all fluxes into a zeroed vector of `n` cells (`/repo/src/rdysetup.c:1130`,
`/repo/src/operator.c:656-664`), with tracers. -/
noncomputable def tracerFluxesB (sv : TSolver) (P : FlowParams) (nt : ℕ) (T : Tables) (Bs : List TBnd) (n : ℕ) (M : TFluxMem)
    (u : Arr ℝ) : Option (TFluxMem × Arr Num) :=
  (applyTracerInteriorB sv P nt T M.interior u (Arr.calloc ((3 + nt) * n) (some 0))).bind fun r =>
    (applyTracerBoundariesB sv P nt T u Bs M.bnds r.2).map fun q => (⟨r.1, q.1⟩, q.2)

/-- A sequence of evaluations with tracers: the results. `/repo/src/rdysetup.c:1120-1142`. -/
noncomputable def tracerEvaluationsB (sv : TSolver) (P : FlowParams) (nt : ℕ) (T : Tables) (Bs : List TBnd) (n : ℕ) :
    TFluxMem → List (Arr ℝ) → Option (TFluxMem × List (Arr Num))
  | M, [] => some (M, [])
  | M, u :: rest =>
    (tracerFluxesB sv P nt T Bs n M u).bind fun r =>
      (tracerEvaluationsB sv P nt T Bs n r.1 rest).map fun q => (q.1, r.2 :: q.2)

end RDy
