import Verif.Model.Mms
import Verif.Model.Time

/-!
What a run with manufactured solutions is fed with (`/repo/src/rdymms.c`): bathymetry, boundary values, roughness,
the time at which errors are measured, the levels of a convergence study, and the expressions that the boundary
conditions refer to. Sources, initial data, norms and rates are in `Verif/Model/Mms.lean`.
-/

namespace RDy

/-! ### Bathymetry -/

/-- `/repo/src/rdymms.c:108-134` `SnapVerticesToBathymetry`: `coords` are the local coordinates, `dim` per vertex
(`/repo/src/rdymesh.c:270-290`); the third entry of each vertex is overwritten. A write past the end is undefined
behaviour. Simplification: the offset of vertex `v` is `dim * v` (the section of a vertex-only coordinate field). -/
noncomputable def mmsSnap (dim numVertices : ℕ) (z : ℝ → ℝ → ℝ) (coords : ℕ → ℝ) : Res (ℕ → ℝ) :=
  if ∀ v < numVertices, dim * v + 2 < dim * numVertices then
    .ok ((List.range numVertices).foldl (fun a v =>
      Function.update a (dim * v + 2) (z (a (dim * v)) (a (dim * v + 1)))) coords)
  else .ub

/-! ### Boundary values -/

/-- `/repo/src/rdymms.c:23-69` `SetAnalyticBoundaryCondition`: the conditions of every boundary. There is always one
for sediment. -/
def mmsBnd (p : Phys) (numEdges : ℕ) : BndInfo :=
  ⟨numEdges, .dirichlet, some .dirichlet, if p.salinityOn then some .dirichlet else none,
    if p.heatOn then some .dirichlet else none⟩

/-- An array with `m` entries per edge, filled as in `/repo/src/rdymms.c:737-743` and `:752-757`: entry `m * e + c` is
component `c` at edge `e`. -/
def edgeArray (m : ℕ) (edges : List (ℝ × ℝ)) (val : ℕ → ℝ × ℝ → ℝ) : List ℝ :=
  edges.flatMap fun e => (List.range m).map fun c => val c e

/-- The manufactured salinity and temperature (`/repo/include/private/rdymmsconfigimpl.h:71-91`). -/
structure MmsScalars where
  S : ℝ → ℝ → ℝ → ℝ
  T : ℝ → ℝ → ℝ → ℝ

/-- `/repo/src/rdymms.c:735-744`: the flow values. -/
noncomputable def mmsFlowAt (F : MmsFields) (t : ℝ) (c : ℕ) (e : ℝ × ℝ) : ℝ :=
  if c = 0 then F.h e.1 e.2 t
  else if c = 1 then F.h e.1 e.2 t * F.u e.1 e.2 t
  else F.h e.1 e.2 t * F.v e.1 e.2 t

/-- `/repo/src/rdymms.c:746-749` flow values, then `:751-765` sediment, if there are classes. -/
noncomputable def mmsEnforceFlow (p : Phys) (bnds : List BndInfo) (F : MmsFields) (t : ℝ) (b : ℕ)
    (edges : List (ℝ × ℝ)) (data : ℕ → ℕ → ℝ) : Res (ℕ → ℕ → ℝ) :=
  match setFlowDirichlet p bnds b edges.length 3 (edgeArray 3 edges (mmsFlowAt F t)) data with
  | .ok d =>
    if 0 < p.numClasses then
      setSedimentDirichlet p bnds b edges.length p.numClasses
        (edgeArray p.numClasses edges fun i e => F.h e.1 e.2 t * F.c i e.1 e.2 t) d
    else .ok d
  | .error => .error
  | .ub => .ub

/-- `/repo/src/rdymms.c:766-778` salinity. -/
noncomputable def mmsEnforceSalinity (p : Phys) (bnds : List BndInfo) (F : MmsFields) (s : MmsScalars) (t : ℝ) (b : ℕ)
    (edges : List (ℝ × ℝ)) (data : ℕ → ℕ → ℝ) : Res (ℕ → ℕ → ℝ) :=
  if p.salinityOn then
    setSalinityDirichlet p bnds b edges.length (edges.map fun e => F.h e.1 e.2 t * s.S e.1 e.2 t) data
  else .ok data

/-- `/repo/src/rdymms.c:779-791` temperature. -/
noncomputable def mmsEnforceHeat (p : Phys) (bnds : List BndInfo) (F : MmsFields) (s : MmsScalars) (t : ℝ) (b : ℕ)
    (edges : List (ℝ × ℝ)) (data : ℕ → ℕ → ℝ) : Res (ℕ → ℕ → ℝ) :=
  if p.heatOn then
    setTemperatureDirichlet p bnds b edges.length (edges.map fun e => F.h e.1 e.2 t * s.T e.1 e.2 t) data
  else .ok data

/-- Sequence of two steps that may fail; `PetscCall` returns at the first error (e.g. `/repo/src/rdymms.c:749`). -/
def Res.andThen {α β : Type} (r : Res α) (f : α → Res β) : Res β :=
  match r with
  | .ok a => f a
  | .error => .error
  | .ub => .ub

/-- `/repo/src/rdymms.c:713-799`: one boundary. -/
noncomputable def mmsEnforceOne (p : Phys) (bnds : List BndInfo) (F : MmsFields) (s : MmsScalars) (t : ℝ) (b : ℕ)
    (edges : List (ℝ × ℝ)) (data : ℕ → ℕ → ℝ) : Res (ℕ → ℕ → ℝ) :=
  ((mmsEnforceFlow p bnds F t b edges data).andThen (mmsEnforceSalinity p bnds F s t b edges)).andThen
    (mmsEnforceHeat p bnds F s t b edges)

/-- `/repo/src/rdymms.c:708-800` `RDyMMSEnforceBoundaryConditions`: the boundaries from index `k` on, each given by the
centroids of its edges. -/
noncomputable def mmsEnforceFrom (p : Phys) (bnds : List BndInfo) (F : MmsFields) (s : MmsScalars) (t : ℝ) :
    ℕ → List (List (ℝ × ℝ)) → (ℕ → ℕ → ℝ) → Res (ℕ → ℕ → ℝ)
  | _, [], data => .ok data
  | k, edges :: rest, data =>
    (mmsEnforceOne p bnds F s t k edges data).andThen (mmsEnforceFrom p bnds F s t (k + 1) rest)

/-- `/repo/src/rdymms.c:138-153` `MMSPreStep`: boundary values, then sources, both in the middle of the step. -/
noncomputable def mmsBefore (p : Phys) (bs : List (List (ℝ × ℝ))) (regions : List SrcRegion) (pm : PMesh)
    (cent : ℕ → ℝ × ℝ) (F : MmsFields) (s : MmsScalars) (t dt : ℝ) (bdata : ℕ → ℕ → ℝ) (src : ℕ → ℝ) :
    Res ((ℕ → ℕ → ℝ) × (ℕ → ℝ)) :=
  (mmsEnforceFrom p (bs.map fun es => mmsBnd p es.length) F s (t + 0.5 * dt) 0 bs bdata).andThen fun b =>
    (mmsSetSources p.total p.numClasses regions pm cent F (t + 0.5 * dt) src).andThen fun a => .ok (b, a)

/-! ### Roughness -/

/-- A region as used here: its local cells and its owned cells (`/repo/src/rdysetup.c:240-272`). -/
structure MatRegion where
  cells : List ℕ
  owned : List ℕ

/-- `/repo/src/rdysetup.c:246-270`: the region with the local cells `cells`, for owned flags and
`local_to_owned`. -/
def MatRegion.of (own : ℕ → Bool) (l2o : ℕ → ℕ) (cells : List ℕ) : MatRegion :=
  ⟨cells, (cells.filter fun c => own c).map l2o⟩

/-- `/repo/src/rdymms.c:819-840`: one region; the centroids of the cells that pass the test against the local size
are packed, and the values at these are written to the first entries of the array of the region, which has one entry
for each owned cell. Writing more values than that is undefined behaviour. -/
noncomputable def mmsRoughnessRegion (ndof nLocal : ℕ) (n : ℝ → ℝ → ℝ) (cent : ℕ → ℝ × ℝ) (r : MatRegion)
    (data : ℕ → ℝ) : Res (ℕ → ℝ) :=
  if (r.cells.filter fun c => ndof * c < nLocal).length ≤ r.owned.length then
    .ok (restoreRegionData 1 r.owned (fun c i =>
      if i < (r.cells.filter fun c => ndof * c < nLocal).length then
        ((r.cells.filter fun c => ndof * c < nLocal).map fun c => n (cent c).1 (cent c).2).getD i 0
      else getRegionData 1 r.owned data c i) data)
  else .ub

/-- `/repo/src/rdymms.c:804-845` `RDyMMSUpdateMaterialProperties`. -/
noncomputable def mmsRoughness (ndof nLocal : ℕ) (n : ℝ → ℝ → ℝ) (cent : ℕ → ℝ × ℝ) :
    List MatRegion → (ℕ → ℝ) → Res (ℕ → ℝ)
  | [], data => .ok data
  | r :: rs, data =>
    (mmsRoughnessRegion ndof nLocal n cent r data).andThen (mmsRoughness ndof nLocal n cent rs)

/-! ### Time of the error norms and levels -/

/-- `/repo/src/rdymms.c:1052-1059`: the time of the manufactured solution that the result of a single run is compared
with; `sec` is the time of the solver, `/repo/src/rdyadvance.c:434-440`. -/
noncomputable def mmsSingleEvalTime (unit : TimeUnit) (sec : ℝ) : ℝ := fromSeconds sec unit

/-- The level of refinement of run `r` of a convergence study: run 0 is set up with the option `-dm_refine` if it is
given and not 0, else with the base refinement (`/repo/src/rdymms.c:193-204`); the option is set for the other runs
(`:943-951`). -/
def mmsLevel (opt : Option ℕ) (base r : ℕ) : ℕ :=
  if r = 0 then (if opt.getD 0 = 0 then base else opt.getD 0) else r + base

/-- The level printed for run `r`, `/repo/src/rdymms.c:961`. -/
def mmsPrintedLevel (base r : ℕ) : ℕ := r + base

/-! ### Expressions of the boundary conditions -/

/-- The parsed expressions of the runs: which are alive, and which run's expressions the static conditions refer to
(`/repo/src/rdymms.c:28-57`). A run is set up, used for boundary values, or destroyed. -/
structure MmsPool where
  alive : ℕ → Bool
  shared : Option ℕ

/-- Nothing has been set up. `/repo/src/rdymms.c:28`. -/
def MmsPool.start : MmsPool := ⟨fun _ => false, none⟩

/-- What is done with run `r`. `/repo/src/rdymms.c:161`, `:708`, `/repo/src/rdycore.c:238-290`. -/
inductive MmsUse
  | setup (r : ℕ)
  | enforce (r : ℕ)
  | destroy (r : ℕ)

/-- One use. Set-up parses the expressions of the run and lets the static conditions refer to these
(`/repo/src/rdymms.c:32-57`); destruction releases them (`/repo/src/yaml_input.c:1804-1862`); the boundary conditions
of every run are copies of pointers to the static conditions (`/repo/src/rdymms.c:58-66`). The result of a use for
boundary values is the run whose expressions are evaluated; those of a destroyed run are undefined behaviour. -/
def MmsPool.use (s : MmsPool) : MmsUse → Res (MmsPool × Option ℕ)
  | .setup r => .ok (⟨Function.update s.alive r true, some r⟩, none)
  | .destroy r => .ok (⟨Function.update s.alive r false, s.shared⟩, none)
  | .enforce _ =>
    match s.shared with
    | none => .ub
    | some q => if s.alive q then .ok (s, some q) else .ub

/-- A sequence of uses; the results of the uses for boundary values, in order. `/repo/src/rdymms.c:940-1001`. -/
def MmsPool.run (s : MmsPool) : List MmsUse → Res (MmsPool × List (Option ℕ))
  | [] => .ok (s, [])
  | u :: us =>
    (s.use u).andThen fun a => (MmsPool.run a.1 us).andThen fun b => .ok (b.1, a.2 :: b.2)

/-- The uses of `RDyMMSEstimateConvergenceRates` (`/repo/src/rdymms.c:940-1001`) with `k` refinements, of a run 0
that is set up before: set-up of the refined runs, `steps r` steps of each run, destruction of the refined runs. -/
def mmsStudyUses (k : ℕ) (steps : ℕ → ℕ) : List MmsUse :=
  (List.range k).map (fun r => .setup (r + 1)) ++
    (List.range (k + 1)).flatMap (fun r => List.replicate (steps r) (.enforce r)) ++
    (List.range k).map fun r => .destroy (r + 1)

end RDy
