import Verif.Lemmas.CeedOpRun
import Verif.Props.Backends
import Verif.Props.Roe
import Mathlib.Tactic

/-!
# The flux operators of the CEED backend as they are put together (C110)

`createFluxC` builds the operators from the arrays of the mesh (geometric factors and offsets packed by owned edges), `fluxEvaluationC` is
one evaluation of the right-hand side's flux divergences, `eulerStepsC` a run whose steps also add to the boundary fluxes for the time
series, `extractFluxC` what is recorded for an edge. The elevations at the vertices are those of the bed: without the BS2002 well-balancing they are never
changed after their initialisation (`/repo/src/operator_fluxes_ceed.c:688-697`).
-/

namespace RDy

open Finset

/-! ### Specification -/

/-- Specification: component `k` of the flux through edge `e` of boundary `B` in state `u`, `none` for NaN. -/
noncomputable def bndFluxC (P : FlowParams) (T : CTables) (B : Bnd) (u : Arr ℝ) (e k : ℕ) : Num :=
  (boundaryFluxCeed P (B.cond e) (stateAt u (T.leftOf (B.ids.val e))) (T.sn.val (B.ids.val e)) (T.cn.val (B.ids.val e))).map
    fun F => F.1.comp k

/-- Specification: the Courant number of internal edge `id` for its left (`k = 0`) or right cell: the largest wave speed times the length of the
edge over the area of the cell, times the time step. -/
noncomputable def edgeCourantOf (P : FlowParams) (T : CTables) (dt : ℝ) (u : Arr ℝ) (id k : ℕ) : Num :=
  (edgeFluxCeed P.g P.tinyH P.hAnuga (stateAt u (T.leftOf id)) (stateAt u (T.R id)) (T.sn.val id) (T.cn.val id) 0).map fun F =>
    F.2 * (T.elen.val id / T.area.val (if k = 0 then T.leftOf id else T.R id)) * dt

/-- Specification: the Courant number of edge `e` of boundary `B` for its cell. -/
noncomputable def bndCourantOf (P : FlowParams) (T : CTables) (B : Bnd) (dt : ℝ) (u : Arr ℝ) (e : ℕ) : Num :=
  (boundaryFluxCeed P (B.cond e) (stateAt u (T.leftOf (B.ids.val e))) (T.sn.val (B.ids.val e)) (T.cn.val (B.ids.val e))).map
    fun F => F.2 * (T.elen.val (B.ids.val e) / T.area.val (T.leftOf (B.ids.val e))) * dt

/-- Specification: is edge `e` of the list of internal edges owned by this process? -/
def CTables.intOwned (T : CTables) (e : ℕ) : Bool := T.edgeOwned.val (T.internal.val e)

/-- Specification: how many internal edges before edge `e` of the list are owned. -/
def CTables.intBefore (T : CTables) (e : ℕ) : ℕ := ((List.range e).filter T.intOwned).length

/-- Specification: is edge `e` of boundary `B` owned by this process? -/
def CTables.bndOwned (T : CTables) (B : Bnd) (e : ℕ) : Bool := T.edgeOwned.val (B.ids.val e)

/-- Specification: how many of the edges before edge `e` of boundary `B` are owned. -/
def CTables.ownedBefore (T : CTables) (B : Bnd) (e : ℕ) : ℕ := ((List.range e).filter (T.bndOwned B)).length

/-- Specification: `N` steps with given time steps and states. -/
def stepsOf (dt : ℕ → ℝ) (u : ℕ → Arr ℝ) (N : ℕ) : List (ℝ × Arr ℝ) := (List.range N).map fun n => (dt n, u n)

variable {T : CTables} {nc n ne nv : ℕ}

/-! ### Definedness -/

/-- C110: on a mesh whose tables have their sizes and name existing cells and vertices, the operators can be built and evaluated
any number of times, for any states, without an access outside an array and without the use of an offset that was not set. -/
theorem C110_defined (P : FlowParams) (hT : T.Valid nc n ne nv) {Bs : List Bnd} (hB : ∀ B ∈ Bs, B.Valid ne) (l : List (ℝ × Arr ℝ))
    (hl : ∀ s ∈ l, s.2.len = 3 * nc) :
    ∃ ops ops', createFluxC P T T.vz Bs = some ops ∧ fluxEvaluationsC nc l ops = some ops' := by
  obtain ⟨ops, h1, h2⟩ := createFluxC_spec P hT T.vz hB
  obtain ⟨ops', h3, -⟩ := evaluations_spec P hT hT.vz hB l _ ops hl h2
  exact ⟨ops, ops', h1, h3⟩

/-- C110 (what an evaluation gives): whatever was evaluated before, an evaluation gives in every place the flux divergence found edge by
edge over the owned edges; it gives NaN somewhere exactly if one of those fluxes is NaN. -/
theorem C110_divergence (P : FlowParams) (hT : T.Valid nc n ne nv) {Bs : List Bnd} (hB : ∀ B ∈ Bs, B.Valid ne) (l : List (ℝ × Arr ℝ))
    (hl : ∀ s ∈ l, s.2.len = 3 * nc) (dt : ℝ) (u : Arr ℝ) (hu : u.len = 3 * nc) {ops ops' : List COp}
    (h1 : createFluxC P T T.vz Bs = some ops) (h2 : fluxEvaluationsC nc l ops = some ops') :
    ∃ ops'' rhs, fluxEvaluationC nc dt u ops' = some (ops'', rhs) ∧ rhs.len = 3 * nc ∧
      (∀ f, ceedDivergence P false (ceedMeshOf T Bs nc) (stateAt u) = some f →
        ∀ c, ∀ k < 3, rhs.val (3 * c + k) = some ((f c).comp k)) ∧
      (ceedDivergence P false (ceedMeshOf T Bs nc) (stateAt u) = none → ∃ c < nc, ∀ k < 3, rhs.val (3 * c + k) = none) := by
  obtain ⟨ops0, e1, e2⟩ := createFluxC_spec P hT T.vz hB
  obtain rfl : ops0 = ops := Option.some.inj (e1.symm.trans h1)
  obtain ⟨ops1, e3, e4⟩ := evaluations_spec P hT hT.vz hB l _ ops0 hl e2
  obtain rfl : ops1 = ops' := Option.some.inj (e3.symm.trans h2)
  obtain ⟨ops'', rhs, i1, -, i3, i4⟩ := evaluation_spec P hT hT.vz hu dt hB e4
  refine ⟨ops'', rhs, i1, i3, fun f hf c k hk => ?_, fun hn => ?_⟩
  · rw [i4 c k hk]
    exact divergence_entry P hT Bs rfl hf c k
  · obtain ⟨c, hc, h⟩ := divergence_nan P hT hB (eta := T.vz) rfl hn
    exact ⟨c, hc, fun k hk => (i4 c k hk).trans (h k)⟩

/-! ### Boundary fluxes -/

private theorem bnd_map (P : FlowParams) (T : CTables) (B : Bnd) (u : Arr ℝ) (e k : ℕ) :
    ((bEdgeFC P T B T.vz u e).map fun F => F.1.comp k) = bndFluxC P T B u e k := by
  unfold bndFluxC
  rw [bEdgeFC_eq P T B rfl]

/-- C110 (vector of boundary fluxes, the part that holds): after any evaluations the row of an owned edge holds the *sum* of its
fluxes in all of them, so the flux itself after the first evaluation. Missing: that it is the flux of the last evaluation, which is
false, see `C110_flux_violated`. -/
theorem C110_flux_partial (P : FlowParams) (hT : T.Valid nc n ne nv) {Bs : List Bnd} (hB : ∀ B ∈ Bs, B.Valid ne) (l : List (ℝ × Arr ℝ))
    (hl : ∀ s ∈ l, s.2.len = 3 * nc) {ops ops' : List COp}
    (h1 : createFluxC P T T.vz Bs = some ops) (h2 : fluxEvaluationsC nc l ops = some ops') {b : ℕ} {B : Bnd} (hb : Bs[b]? = some B) :
    ∃ op v, ops'[b + 1]? = some op ∧ op.fluxVec = some v ∧ ∀ e < B.ids.len, T.bndOwned B e = true → ∀ k < 3,
      v.val (3 * T.ownedBefore B e + k) =
        (l.map fun s => bndFluxC P T B s.2 e k).foldl Num.add (some 0) := by
  obtain ⟨ops0, e1, e2⟩ := createFluxC_spec P hT T.vz hB
  obtain rfl : ops0 = ops := Option.some.inj (e1.symm.trans h1)
  obtain ⟨ops1, e3, e4⟩ := evaluations_spec P hT hT.vz hB l _ ops0 hl e2
  obtain rfl : ops1 = ops' := Option.some.inj (e3.symm.trans h2)
  obtain ⟨g, o, fl, cn, bops, -, -, -, rfl, hf⟩ := e4
  obtain ⟨op, i1, g', o', fl', cn', -, -, -, hΦ, rfl⟩ := forall₂_getElem? hf hb
  refine ⟨_, fl', i1, rfl, fun e he ho k hk => ?_⟩
  obtain ⟨j1, j2⟩ := owned'_getD T B.ids ho _ he
  have h : fl'.val (3 * (T.owned' B.ids e).length + k) = _ := hΦ _ k hk
  rw [plusFluxes_eq, if_pos j1, j2] at h
  refine Eq.trans h ?_
  rw [List.foldl_map]
  simp only [bnd_map]

/-! ### Courant numbers -/

/-- C110 (vectors of Courant numbers, the part that holds): an evaluation *adds* to the rows of an owned edge its Courant numbers; both cells of
an internal edge have one, with the positive sign. Missing: that the rows hold the Courant numbers of the last evaluation (they do after the
first one only), see `C79_accumulates_violated` for what is reported. -/
theorem C110_courant_partial (P : FlowParams) (hT : T.Valid nc n ne nv) {Bs : List Bnd} (hB : ∀ B ∈ Bs, B.Valid ne) (l : List (ℝ × Arr ℝ))
    (hl : ∀ s ∈ l, s.2.len = 3 * nc) (dt : ℝ) (u : Arr ℝ) (hu : u.len = 3 * nc) {ops ops' ops'' : List COp} {rhs : Arr Num}
    (h1 : createFluxC P T T.vz Bs = some ops) (h2 : fluxEvaluationsC nc l ops = some ops')
    (h3 : fluxEvaluationC nc dt u ops' = some (ops'', rhs)) :
    (∃ v v', ops'[0]?.bind (fun op => op.outVec 3) = some v ∧ ops''[0]?.bind (fun op => op.outVec 3) = some v' ∧
      ∀ e < T.internal.len, T.intOwned e = true → ∀ k < 2, v'.val (2 * T.intBefore e + k) =
        (v.val (2 * T.intBefore e + k)).add (edgeCourantOf P T dt u (T.internal.val e) k)) ∧
    ∀ (b : ℕ) (B : Bnd), Bs[b]? = some B → ∃ v v',
      ops'[b + 1]?.bind (fun op => op.outVec 2) = some v ∧ ops''[b + 1]?.bind (fun op => op.outVec 2) = some v' ∧
      ∀ e < B.ids.len, T.bndOwned B e = true → v'.val (T.ownedBefore B e) =
        (v.val (T.ownedBefore B e)).add (bndCourantOf P T B dt u e) := by
  obtain ⟨ops0, e1, e2⟩ := createFluxC_spec P hT T.vz hB
  obtain rfl : ops0 = ops := Option.some.inj (e1.symm.trans h1)
  obtain ⟨ops1, e3, e4⟩ := evaluations_spec P hT hT.vz hB l _ ops0 hl e2
  obtain rfl : ops1 = ops' := Option.some.inj (e3.symm.trans h2)
  obtain ⟨⟨cn, cn', i1, i2, i3⟩, i4⟩ := evaluation_courant P hT hT.vz hu dt hB e4 h3
  refine ⟨⟨cn, cn', i1, i2, fun e he ho k hk => ?_⟩, fun b B hb => ?_⟩
  · obtain ⟨j1, j2⟩ := owned'_getD T T.internal ho _ he
    have h := i3 (T.owned' T.internal e).length (by rw [hT.count]; exact j1) k hk
    rw [j2] at h
    refine Eq.trans h (congrArg _ ?_)
    unfold edgeCourant edgeFC edgeCourantOf
    rw [computeDhv_bed]
    congr 1
    funext F
    by_cases h0 : k = 0
    · rw [if_pos h0, if_pos h0]; ring
    · rw [if_neg h0, if_neg h0]
  · obtain ⟨cn, cn', k1, k2, k3⟩ := i4 b B hb
    refine ⟨cn, cn', k1, k2, fun e he ho => ?_⟩
    obtain ⟨j1, j2⟩ := owned'_getD T B.ids ho _ he
    have h := k3 (T.owned' B.ids e).length j1
    rw [j2] at h
    refine Eq.trans h (congrArg _ ?_)
    rw [bEdgeFC_eq P T B rfl]
    unfold bndCourantOf bWeight
    congr 1
    funext F
    ring

/-- the values accumulated -/
private theorem eulerAcc_sum (P : FlowParams) (T : CTables) (B : Bnd) (j k : ℕ) (hj : j < (T.owned' B.ids B.ids.len).length)
    (dt : ℕ → ℝ) (u : ℕ → Arr ℝ) (x : ℕ → ℝ) (N : ℕ)
    (hx : ∀ m < N, bndFluxC P T B (u m) ((T.owned' B.ids B.ids.len).getD j 0) k = some (x m)) :
    plusFluxes P T T.vz (stepsOf dt u N) (fun _ _ _ => some 0) B j k = some (∑ m ∈ range N, x m) ∧
    eulerAcc P T T.vz (stepsOf dt u N) (fun _ _ _ => some 0) (fun _ _ _ => some 0) B j k =
      some (∑ m ∈ range N, dt m * ∑ i ∈ range (m + 1), x i) := by
  induction N with
  | zero => exact ⟨by simp [stepsOf, plusFluxes], by simp [stepsOf, eulerAcc]⟩
  | succ N ih =>
    obtain ⟨h1, h2⟩ := ih fun m hm => hx m (by omega)
    have hs : stepsOf dt u (N + 1) = stepsOf dt u N ++ [(dt N, u N)] := by
      unfold stepsOf
      rw [List.range_succ, List.map_append]
      rfl
    have h3 : plusFlux P T T.vz (u N) (plusFluxes P T T.vz (stepsOf dt u N) fun _ _ _ => some 0) B j k =
        some (∑ m ∈ range (N + 1), x m) := by
      unfold plusFlux
      rw [if_pos hj, h1, bnd_map, hx N (by omega), Finset.sum_range_succ]
      rfl
    refine ⟨?_, ?_⟩
    · rw [hs, plusFluxes_append]
      exact h3
    · rw [hs, eulerAcc_append, h2, h3, Finset.sum_range_succ (fun m => dt m * ∑ i ∈ range (m + 1), x i) N]
      refine congrArg some ?_
      dsimp only
      ring

/-- C110 (boundary fluxes accumulated for the time series, the part that holds): in a run of `N` steps the row of an owned edge collects, for
each step, the time step times the sum of the fluxes of this and *all earlier* evaluations. Missing: that it collects
`∑ dt_m x_m`; that is false from the second step on, see `C110_series_violated`. -/
theorem C110_series_partial (P : FlowParams) (hT : T.Valid nc n ne nv) {Bs : List Bnd} (hB : ∀ B ∈ Bs, B.Valid ne)
    (dt : ℕ → ℝ) (u : ℕ → Arr ℝ) (N : ℕ) (hu : ∀ m, (u m).len = 3 * nc) :
    ∃ ops ops' acc, createFluxC P T T.vz Bs = some ops ∧ eulerStepsC nc (stepsOf dt u N) ops (createAccumC Bs) = some (ops', acc) ∧
      ∀ (b : ℕ) (B : Bnd), Bs[b]? = some B → ∃ a, acc[b]? = some a ∧ ∀ e < B.ids.len, T.bndOwned B e = true → ∀ k < 3, ∀ x : ℕ → ℝ,
        (∀ m < N, bndFluxC P T B (u m) e k = some (x m)) →
        extractFluxC a k (T.ownedBefore B e) = some (some (∑ m ∈ range N, dt m * ∑ i ∈ range (m + 1), x i)) := by
  obtain ⟨ops, e1, e2⟩ := createFluxC_spec P hT T.vz hB
  obtain ⟨ops', acc, e3, e4⟩ := eulerSteps_spec P hT hT.vz hB (stepsOf dt u N) _ _ ops (createAccumC Bs)
    (fun s hs => by
      obtain ⟨m, -, rfl⟩ := List.mem_map.mp hs
      exact hu m) e2 (forall₂_accum Bs)
  refine ⟨ops, ops', acc, e1, e3, fun b B hb => ?_⟩
  obtain ⟨a, i1, i2, i3⟩ := forall₂_getElem? e4 hb
  refine ⟨a, i1, fun e he ho k hk x hx => ?_⟩
  obtain ⟨j1, j2⟩ := owned'_getD T B.ids ho _ he
  have hlen := owned'_len_self T B.ids B.ids.len
  show a.get (3 * (T.owned' B.ids e).length + k) = _
  rw [Arr.get_some (by omega), i3 _ k hk, (eulerAcc_sum P T B _ k j1 dt u x N (by rw [j2]; exact hx)).2]

/-- C110 (the case in which the time series is right): on a boundary all of whose edges are owned, after a single step, what is recorded for an
edge is the time step times its flux. Missing: boundaries with edges of other processes, and later steps. -/
theorem C110_one_step_partial (P : FlowParams) (hT : T.Valid nc n ne nv) {Bs : List Bnd} (hB : ∀ B ∈ Bs, B.Valid ne)
    (dt : ℝ) (u : Arr ℝ) (hu : u.len = 3 * nc) {b : ℕ} {B : Bnd} (hb : Bs[b]? = some B) (ho : ∀ e < B.ids.len, T.bndOwned B e = true) :
    ∃ ops ops' acc a, createFluxC P T T.vz Bs = some ops ∧ eulerStepsC nc [(dt, u)] ops (createAccumC Bs) = some (ops', acc) ∧
      acc[b]? = some a ∧ ∀ e < B.ids.len, ∀ k < 3, ∀ x : ℝ, bndFluxC P T B u e k = some x → extractFluxC a k e = some (some (dt * x)) := by
  obtain ⟨ops, ops', acc, h1, h2, h3⟩ := C110_series_partial P hT hB (fun _ => dt) (fun _ => u) 1 fun _ => hu
  obtain ⟨a, h4, h5⟩ := h3 b B hb
  refine ⟨ops, ops', acc, a, h1, h2, h4, fun e he k hk x hx => ?_⟩
  have h := h5 e he (ho e he) k hk (fun _ => x) fun _ _ => hx
  have hr : T.ownedBefore B e = e := owned'_all T B.ids e fun e' h' => ho e' (h'.trans he)
  rw [hr] at h
  rw [h]
  simp

/-! ### An example: two cells, one of them of another process -/

/-- cell 0 is owned; edge 0 is between the cells, edge 1 is a boundary edge of cell 1 (not owned), edge 2 one of cell 0 -/
def exCT : CTables where
  internal := ⟨1, fun _ => 0⟩
  cellIds := ⟨6, fun j => if j = 1 then 1 else if j = 2 then 1 else if j = 3 then -1 else if j = 5 then -1 else 0⟩
  elen := ⟨3, fun _ => 2⟩
  sn := ⟨3, fun _ => 0⟩
  cn := ⟨3, fun _ => 1⟩
  edgeOwned := ⟨3, fun e => decide (e ≠ 1)⟩
  area := ⟨2, fun _ => 4⟩
  owned := ⟨2, fun c => decide (c = 0)⟩
  l2o := ⟨2, fun c => c⟩
  vertexIds := ⟨6, fun j => j⟩
  vz := ⟨6, fun _ => 0⟩
  numOwnedInternal := 1

theorem exCT_valid : exCT.Valid 2 1 3 6 where
  base :=
    { ids := by intro e he; show 0 < 3; omega
      cellIds := rfl
      elen := rfl
      sn := rfl
      cn := rfl
      area := rfl
      owned := rfl
      l2o := rfl
      left := by intro id h; interval_cases id <;> decide
      right := by intro id h; interval_cases id <;> decide
      range := by intro c h; interval_cases c <;> decide }
  edgeOwned := rfl
  l2o_lt := fun c h => h
  vertexIds := rfl
  vertex := fun k h => h
  vz := rfl
  two := by intro e he _; show (1 : ℤ) ≠ -1; decide
  count := by decide

/-- a Dirichlet boundary with edge 2 only, water of depth 1 at rest outside -/
noncomputable def exCB : Bnd := ⟨⟨1, fun _ => 2⟩, .dirichlet, ⟨3, fun j => if j % 3 = 0 then 1 else 0⟩⟩

/-- the same with the edges 1 and 2 -/
noncomputable def exCB2 : Bnd := ⟨⟨2, fun e => 1 + e⟩, .dirichlet, ⟨6, fun j => if j % 3 = 0 then 1 else 0⟩⟩

theorem exCB_valid : exCB.Valid 3 := ⟨fun e _ => by show 2 < 3; omega, rfl⟩

theorem exCB2_valid : exCB2.Valid 3 := ⟨fun e he => by show 1 + e < 3; have : e < 2 := he; omega, rfl⟩

/-- still water of depth 1 in both cells -/
noncomputable def exCU : Arr ℝ := ⟨6, fun j => if j % 3 = 0 then 1 else 0⟩

/-- the parameters -/
noncomputable def exCP : FlowParams := ⟨9.8, 0.001, 0, 0⟩

/-- in still water the flux of momentum through an edge with normal (1, 0) is g h²/2 -/
theorem exC_flux (bv : ℕ → Cons) (c e : ℕ) (hb : bv e = ⟨1, 0, 0⟩) (hc : stateAt exCU c = ⟨1, 0, 0⟩) :
    (boundaryFluxCeed exCP (.dirichlet (bv e)) (stateAt exCU c) 0 1).map (fun F => F.1.comp 1) = some 4.9 := by
  rw [hb, hc]
  have h1 : boundaryFluxCeed exCP (.dirichlet ⟨1, 0, 0⟩) ⟨1, 0, 0⟩ 0 1 =
      roeFluxCeed exCP.g exCP.tinyH exCP.hAnuga ⟨1, 0, 0⟩ ⟨1, 0, 0⟩ 0 1 0 := by
    show edgeFluxCeed _ _ _ _ _ _ _ _ = _
    unfold edgeFluxCeed
    rw [if_pos (Or.inl (by norm_num [exCP]))]
  rw [h1, roeFluxCeed_eq _ _ _ _ _ (by norm_num [exCP]) (by norm_num [exCP]) (by norm_num [exCP]) (by norm_num [exCP]),
    C36_consistent _ _ _ (by norm_num [exCP]) (by rw [velocities_depth]; norm_num)]
  show some (Flux.comp _ 1) = _
  refine congrArg some ?_
  unfold Flux.comp
  rw [if_neg (by decide), if_pos rfl]
  unfold physFlux velocities
  norm_num [exCP]

theorem exCB_flux : bndFluxC exCP exCT exCB exCU 0 1 = some 4.9 :=
  exC_flux (fun e => stateAt exCB.values e) 0 0 (by simp [stateAt, exCB]) (by simp [stateAt, exCU])

theorem exCB2_flux : bndFluxC exCP exCT exCB2 exCU 1 1 = some 4.9 :=
  exC_flux (fun e => stateAt exCB2.values e) 0 1 (by simp [stateAt, exCB2]) (by simp [stateAt, exCU])

example : ∃ ops ops', createFluxC exCP exCT exCT.vz [exCB2] = some ops ∧ fluxEvaluationsC 2 [(1, exCU), (2, exCU)] ops = some ops' :=
  C110_defined exCP exCT_valid (by simpa using exCB2_valid) _ (by intro s hs; simp at hs; rcases hs with rfl | rfl <;> rfl)

example {ops ops' : List COp} (h1 : createFluxC exCP exCT exCT.vz [exCB2] = some ops)
    (h2 : fluxEvaluationsC 2 [(1, exCU), (2, exCU)] ops = some ops') :
    ∃ ops'' rhs, fluxEvaluationC 2 1 exCU ops' = some (ops'', rhs) ∧ rhs.len = 3 * 2 ∧
      (∀ f, ceedDivergence exCP false (ceedMeshOf exCT [exCB2] 2) (stateAt exCU) = some f →
        ∀ c, ∀ k < 3, rhs.val (3 * c + k) = some ((f c).comp k)) ∧
      (ceedDivergence exCP false (ceedMeshOf exCT [exCB2] 2) (stateAt exCU) = none →
        ∃ c < 2, ∀ k < 3, rhs.val (3 * c + k) = none) :=
  C110_divergence exCP exCT_valid (by simpa using exCB2_valid) _ (by intro s hs; simp at hs; rcases hs with rfl | rfl <;> rfl) 1 exCU rfl
    h1 h2

/-- the second evaluation adds to row 0 of the boundary operator the Courant number of the only owned edge of the boundary, its second one -/
example {ops ops' ops'' : List COp} {rhs : Arr Num} (h1 : createFluxC exCP exCT exCT.vz [exCB2] = some ops)
    (h2 : fluxEvaluationsC 2 [(1, exCU)] ops = some ops') (h3 : fluxEvaluationC 2 2 exCU ops' = some (ops'', rhs)) :
    ∃ v v', ops'[1]?.bind (fun op => op.outVec 2) = some v ∧ ops''[1]?.bind (fun op => op.outVec 2) = some v' ∧
      v'.val 0 = (v.val 0).add (bndCourantOf exCP exCT exCB2 2 exCU 1) := by
  obtain ⟨v, v', i1, i2, i3⟩ := (C110_courant_partial exCP exCT_valid (Bs := [exCB2]) (by simpa using exCB2_valid) [(1, exCU)]
    (by intro s hs; simp at hs; obtain rfl := hs; rfl) 2 exCU rfl h1 h2 h3).2 0 exCB2 rfl
  exact ⟨v, v', i1, i2, i3 1 (by decide) rfl⟩

example : ∃ ops ops' acc a, createFluxC exCP exCT exCT.vz [exCB] = some ops ∧
    eulerStepsC 2 [((3 : ℝ), exCU)] ops (createAccumC [exCB]) = some (ops', acc) ∧ acc[0]? = some a ∧
    extractFluxC a 1 0 = some (some (3 * 4.9)) := by
  obtain ⟨ops, ops', acc, a, h1, h2, h3, h4⟩ := C110_one_step_partial exCP exCT_valid (Bs := [exCB]) (by simpa using exCB_valid) 3 exCU rfl
    (b := 0) rfl (fun e he => rfl)
  exact ⟨ops, ops', acc, a, h1, h2, h3, h4 0 (by decide) 1 (by decide) _ exCB_flux⟩

/-- C110 fails for the vector of boundary fluxes: after two evaluations in the same state it holds twice the flux. -/
theorem C110_flux_violated :
    ∃ ops ops' op v, createFluxC exCP exCT exCT.vz [exCB] = some ops ∧ fluxEvaluationsC 2 [(1, exCU), (1, exCU)] ops = some ops' ∧
      ops'[1]? = some op ∧ op.fluxVec = some v ∧ bndFluxC exCP exCT exCB exCU 0 1 = some 4.9 ∧ v.val 1 = some (9.8 : ℝ) := by
  have hl : ∀ s ∈ [((1 : ℝ), exCU), (1, exCU)], s.2.len = 3 * 2 := by intro s hs; simp at hs; obtain rfl := hs; rfl
  obtain ⟨ops, ops', h1, h2⟩ := C110_defined exCP exCT_valid (Bs := [exCB]) (by simpa using exCB_valid) _ hl
  obtain ⟨op, v, h3, h4, h5⟩ := C110_flux_partial exCP exCT_valid (Bs := [exCB]) (by simpa using exCB_valid) _ hl h1 h2 (b := 0) rfl
  refine ⟨ops, ops', op, v, h1, h2, h3, h4, exCB_flux, ?_⟩
  have h := h5 0 (by decide) rfl 1 (by decide)
  refine Eq.trans h ?_
  simp only [List.map_cons, List.map_nil, List.foldl_cons, List.foldl_nil, exCB_flux]
  refine congrArg some ?_
  norm_num

/-- C110 fails for the time series: after two steps of length 1 with the same flux 4.9 through the edge, 14.7 is recorded
instead of 9.8. -/
theorem C110_series_violated :
    ∃ ops ops' acc a, createFluxC exCP exCT exCT.vz [exCB] = some ops ∧
      eulerStepsC 2 [(1, exCU), (1, exCU)] ops (createAccumC [exCB]) = some (ops', acc) ∧ acc[0]? = some a ∧
      bndFluxC exCP exCT exCB exCU 0 1 = some 4.9 ∧ extractFluxC a 1 0 = some (some 14.7) ∧ (1 : ℝ) * 4.9 + 1 * 4.9 ≠ 14.7 := by
  obtain ⟨ops, ops', acc, h1, h2, h3⟩ := C110_series_partial exCP exCT_valid (Bs := [exCB]) (by simpa using exCB_valid) (fun _ => 1)
    (fun _ => exCU) 2 fun _ => rfl
  obtain ⟨a, h4, h5⟩ := h3 0 exCB rfl
  refine ⟨ops, ops', acc, a, h1, h2, h4, exCB_flux, ?_, by norm_num⟩
  have h := h5 0 (by decide) rfl 1 (by decide) (fun _ => 4.9) fun _ _ => exCB_flux
  refine Eq.trans h ?_
  refine congrArg some (congrArg some ?_)
  norm_num [Finset.sum_range_succ]

/-- C110 fails on boundaries with edges of other processes: rows are packed by owned edges but read by the number of the edge. Here the
second edge of the boundary is owned and its flux is 4.9, found in row 0; what is recorded for it is row 1, which stays 0. -/
theorem C110_rows_violated :
    ∃ ops ops' acc a, createFluxC exCP exCT exCT.vz [exCB2] = some ops ∧
      eulerStepsC 2 [(1, exCU)] ops (createAccumC [exCB2]) = some (ops', acc) ∧ acc[0]? = some a ∧
      exCT.bndOwned exCB2 1 = true ∧ bndFluxC exCP exCT exCB2 exCU 1 1 = some 4.9 ∧
      extractFluxC a 1 0 = some (some 4.9) ∧ extractFluxC a 1 1 = some (some 0) := by
  obtain ⟨ops, e1, e2⟩ := createFluxC_spec exCP exCT_valid exCT.vz (Bs := [exCB2]) (by simpa using exCB2_valid)
  obtain ⟨ops', acc, e3, e4⟩ := eulerSteps_spec exCP exCT_valid rfl (by simpa using exCB2_valid) [(1, exCU)] _ _ ops
    (createAccumC [exCB2]) (by intro s hs; simp at hs; obtain rfl := hs; rfl) e2 (forall₂_accum _)
  obtain ⟨a, i1, i2, i3⟩ := forall₂_getElem? e4 (i := 0) rfl
  have hl : (exCT.owned' exCB2.ids exCB2.ids.len).length = 1 := by decide
  have hg : (exCT.owned' exCB2.ids exCB2.ids.len).getD 0 0 = 1 := by decide
  refine ⟨ops, ops', acc, a, e1, e3, i1, rfl, exCB2_flux, ?_, ?_⟩
  · show a.get (3 * 0 + 1) = _
    rw [Arr.get_some (by rw [i2]; decide), i3 0 1 (by decide)]
    refine congrArg some ?_
    have h := (eulerAcc_sum exCP exCT exCB2 0 1 (by rw [hl]; decide) (fun _ => 1) (fun _ => exCU) (fun _ => 4.9) 1
      (fun m _ => by rw [hg]; exact exCB2_flux)).2
    refine Eq.trans h ?_
    refine congrArg some ?_
    norm_num
  · show a.get (3 * 1 + 1) = _
    rw [Arr.get_some (by rw [i2]; decide), i3 1 1 (by decide)]
    refine congrArg some ?_
    show Num.add (some 0) (Num.scale (plusFlux exCP exCT exCT.vz exCU (fun _ _ _ => some 0) exCB2 1 1) 1) = _
    unfold plusFlux
    rw [if_neg (by rw [hl]; decide)]
    refine congrArg some ?_
    norm_num

end RDy
