import Verif.Props.Conservation
import Verif.Props.Friction

/-!
C43: with hydrostatic reconstruction, still water with a level surface stays as it is.
-/

namespace RDy

open Finset

/-! ### Specification -/

/-- Still water with surface elevation `eta` over a bed of elevation `z`: cells below the surface are
filled up to it, cells above are dry. -/
noncomputable def restState (eta z : ℝ) : Cons := ⟨max 0 (eta - z), 0, 0⟩

/-- Sum over the internal edges of `l`, of length times outward normal component, at cell `c`. -/
noncomputable def closureI (n : IEdge → ℝ) (c : ℕ) (l : List IEdge) : ℝ :=
  (l.map fun e => match e.right with
    | none => 0
    | some r => (if e.left = c then e.len * n e else 0) - if r = c then e.len * n e else 0).sum

/-- Sum over the boundary edges of cell `c` of length times outward normal component. -/
noncomputable def closureB (n : BEdge → ℝ) (c : ℕ) (l : List BEdge) : ℝ :=
  (l.map fun e => if e.cell = c then e.len * n e else 0).sum

/-- The edges of each owned cell form a closed polygon: lengths times outward normals add up to zero. -/
def ClosedCells (pm : PMesh) : Prop :=
  ∀ c < pm.numCells, pm.owned c = true →
    closureI IEdge.cn c pm.internal + closureB BEdge.cn c pm.boundary = 0 ∧
    closureI IEdge.sn c pm.internal + closureB BEdge.sn c pm.boundary = 0

/-- Boundaries at which a lake can rest: walls, or prescribed values equal to the state at rest. -/
def RestBoundaries (eta : ℝ) (pm : PMesh) : Prop :=
  ∀ e ∈ pm.boundary, e.bc = .reflecting ∨ e.bc = .dirichlet (restState eta (pm.zc e.cell))

/-- No films thinner than `tiny_h`. -/
def NoFilm (P : FlowParams) (eta : ℝ) (pm : PMesh) : Prop :=
  ∀ c < pm.numCells, eta ≤ pm.zc c ∨ P.tinyH < eta - pm.zc c

/-! ### Single cells -/

theorem addOwned_cell {pm : PMesh} (hinj : OwnedInj pm) (f : ℕ → Flux) {c c' : ℕ}
    (hc : c < pm.numCells) (ho : pm.owned c = true) (hc' : c' < pm.numCells) (F : Flux) :
    addOwned pm f c' F (pm.l2o c) = if c' = c then (f (pm.l2o c)).add F else f (pm.l2o c) := by
  unfold addOwned
  by_cases e : c' = c
  · subst e
    rw [if_pos ho, if_pos rfl]
    simp [addAt]
  · rw [if_neg e]
    by_cases ho' : pm.owned c' = true
    · rw [if_pos ho']
      have : pm.l2o c ≠ pm.l2o c' := fun h => e (hinj c hc c' hc' ho ho' h).symm
      simp [addAt, this]
    · rw [if_neg ho']

theorem addBoth_cell {pm : PMesh} (hinj : OwnedInj pm) {k : Flux → ℝ} (hk : LinF k) (f : ℕ → Flux)
    {c l r : ℕ} (hc : c < pm.numCells) (ho : pm.owned c = true) (hl : l < pm.numCells)
    (hr : r < pm.numCells) (FL FR : Flux) :
    k (addBoth pm f l r FL FR (pm.l2o c)) =
      k (f (pm.l2o c)) + (if l = c then k FL else 0) + if r = c then k FR else 0 := by
  unfold addBoth
  rw [addOwned_cell hinj _ hc ho hr, addOwned_cell hinj _ hc ho hl]
  by_cases h1 : r = c <;> by_cases h2 : l = c <;> simp [h1, h2, hk.add, add_assoc]

/-! ### Fluxes at rest -/

/-- hydrostatic pressure on an edge of unit length -/
noncomputable def pressure (g h sn cn : ℝ) : Flux := ⟨0, 0.5 * g * h ^ 2 * cn, 0.5 * g * h ^ 2 * sn⟩

theorem roe_rest {g h : ℝ} (hg : 0 < g) (hh : 0 < h) (sn cn : ℝ) :
    ((roeFlux g ⟨h, 0, 0⟩ ⟨h, 0, 0⟩ sn cn).map Prod.fst) = some (pressure g h sn cn) := by
  rw [C36_consistent ⟨h, 0, 0⟩ cn sn hg hh]
  simp only [Option.map_some, physFlux, pressure]
  congr 1
  ext <;> simp only <;> ring

/-- the depth reconstructed on either side of an edge is the smaller of the two depths -/
theorem rest_rec (eta zL zR : ℝ) :
    max 0 (max 0 (eta - zL) + zL - max zL zR) = min (max 0 (eta - zL)) (max 0 (eta - zR)) := by
  rcases le_total zL zR with h | h
  · rw [max_eq_right h]
    rcases le_total 0 (eta - zL) with h1 | h1
    · rw [max_eq_right h1]
      have : eta - zL + zL - zR = eta - zR := by ring
      rw [this, min_eq_right]
      exact max_le h1 (by linarith)
    · have h2 : eta - zR ≤ 0 := by linarith
      rw [max_eq_left h1, max_eq_left h2, min_self, max_eq_left]
      linarith
  · rw [max_eq_left h]
    have : max 0 (eta - zL) + zL - zL = max 0 (eta - zL) := by ring
    rw [this, max_eq_right (le_max_left _ _), min_eq_left]
    exact max_le_max (le_refl _) (by linarith)

theorem hrState_rest (P : FlowParams) (eta zL zR : ℝ) :
    hrState P zL (max zL zR) (restState eta zL) =
      ⟨min (max 0 (eta - zL)) (max 0 (eta - zR)), 0, 0⟩ := by
  unfold hrState restState
  simp only [rest_rec, zero_mul, zero_div, ite_self]

/-- a depth at rest is 0 or above `tiny_h` -/
theorem rest_depth {P : FlowParams} {eta z : ℝ} (ht : 0 < P.tinyH)
    (h : eta ≤ z ∨ P.tinyH < eta - z) :
    max 0 (eta - z) = 0 ∨ P.tinyH < max 0 (eta - z) := by
  rcases h with h | h
  · left; exact max_eq_left (by linarith)
  · right; rw [max_eq_right (by linarith)]; exact h

theorem hrFlux_rest {P : FlowParams} {h : ℝ} (hg : 0 < P.g) (ht : 0 < P.tinyH)
    (h0 : h = 0 ∨ P.tinyH < h) (sn cn : ℝ) :
    hrFlux P ⟨h, 0, 0⟩ ⟨h, 0, 0⟩ sn cn = some (pressure P.g h sn cn) := by
  unfold hrFlux
  rcases h0 with h0 | h0
  · have : ¬ (h > P.tinyH ∨ h > P.tinyH) := by rw [h0]; simp; linarith
    rw [if_neg this, h0]
    simp [pressure]
  · rw [if_pos (Or.inl h0)]
    exact roe_rest hg (lt_trans ht h0) sn cn

/-- effect of one internal edge on one owned cell -/
theorem hrEdge_rest {P : FlowParams} {pm : PMesh} (hg : 0 < P.g) (ht : 0 < P.tinyH)
    (hinj : OwnedInj pm) (hv : EdgesValid pm) {eta : ℝ} (hf : NoFilm P eta pm) {u : ℕ → Cons}
    (hu : ∀ c < pm.numCells, u c = restState eta (pm.zc c)) (f f' : ℕ → Flux) (e : IEdge)
    (he : e ∈ pm.internal) (h : hrEdge P pm u f e = some f') {c : ℕ} (hc : c < pm.numCells)
    (ho : pm.owned c = true) {k : Flux → ℝ} (hk : LinF k) {n : IEdge → ℝ}
    (hkn : ∀ h, k (pressure P.g h e.sn e.cn) = 0.5 * P.g * h ^ 2 * n e) :
    k (f' (pm.l2o c)) = k (f (pm.l2o c)) + -(0.5 * P.g * (u c).h ^ 2 / pm.area c) *
      (match e.right with
        | none => 0
        | some r => (if e.left = c then e.len * n e else 0) - if r = c then e.len * n e else 0) := by
  unfold hrEdge at h
  cases hr : e.right with
  | none =>
    rw [hr] at h
    simp only [Option.some.injEq] at h
    subst h
    simp
  | some r =>
    rw [hr] at h
    simp only at h ⊢
    have hl := hv.left e he
    have hrr := hv.right e he r hr
    have dl : (u e.left).h = 0 ∨ P.tinyH < (u e.left).h := by
      rw [hu _ hl]; exact rest_depth ht (hf _ hl)
    have dr : (u r).h = 0 ∨ P.tinyH < (u r).h := by
      rw [hu _ hrr]; exact rest_depth ht (hf _ hrr)
    by_cases hd : (u r).h < P.tinyH ∧ (u e.left).h < P.tinyH
    · rw [if_pos hd] at h
      simp only [Option.some.injEq] at h
      subst h
      have z1 : (u e.left).h = 0 := by
        rcases dl with h | h
        · exact h
        · linarith [hd.2]
      have z2 : (u r).h = 0 := by
        rcases dr with h | h
        · exact h
        · linarith [hd.1]
      by_cases h1 : e.left = c
      · rw [← h1, z1]; simp
      · by_cases h2 : r = c
        · rw [← h2, z2]; simp
        · simp [h1, h2]
    · rw [if_neg hd] at h
      simp only [Option.map_eq_some_iff] at h
      obtain ⟨F, hF, hf'⟩ := h
      have eL : hrState P (pm.zc e.left) (max (pm.zc e.left) (pm.zc r)) (u e.left) =
          ⟨min (u e.left).h (u r).h, 0, 0⟩ := by
        rw [hu _ hl, hu _ hrr, hrState_rest]; rfl
      have eR : hrState P (pm.zc r) (max (pm.zc e.left) (pm.zc r)) (u r) =
          ⟨min (u e.left).h (u r).h, 0, 0⟩ := by
        rw [hu _ hl, hu _ hrr, max_comm, hrState_rest, min_comm]; rfl
      have hm : min (u e.left).h (u r).h = 0 ∨ P.tinyH < min (u e.left).h (u r).h := by
        rcases dl with h1 | h1 <;> rcases dr with h2 | h2
        · left; rw [h1, h2, min_self]
        · left; rw [h1, min_eq_left]; linarith
        · left; rw [h2, min_eq_right]; linarith
        · right; exact lt_min h1 h2
      rw [eL, eR] at hF hf'
      rw [hrFlux_rest hg ht hm] at hF
      simp only [Option.some.injEq] at hF
      rw [← hF] at hf'
      have hcorr : ∀ h, k (hrCorrection P h (min (u e.left).h (u r).h) e.sn e.cn) =
          0.5 * P.g * h ^ 2 * n e - 0.5 * P.g * (min (u e.left).h (u r).h) ^ 2 * n e := by
        intro h
        rw [← hkn h, ← hkn (min (u e.left).h (u r).h)]
        have : pressure P.g h e.sn e.cn = (hrCorrection P h (min (u e.left).h (u r).h) e.sn e.cn).add
            (pressure P.g (min (u e.left).h (u r).h) e.sn e.cn) := by
          unfold pressure hrCorrection Flux.add
          ext <;> simp only <;> ring
        rw [this, hk.add]
        ring
      rw [← hf', addBoth_cell hinj hk _ hc ho hl hrr, addBoth_cell hinj hk _ hc ho hl hrr]
      simp only [hk.smul, hkn, hcorr]
      have hal := hv.area _ hl
      have har := hv.area _ hrr
      by_cases h1 : e.left = c
      · by_cases h2 : r = c
        · rw [← h1] at h2 ⊢
          simp only [h2, if_true]
          ring
        · rw [← h1] at h2 ⊢
          simp only [h2, if_true, if_false]
          field_simp
          ring
      · by_cases h2 : r = c
        · rw [← h2] at h1 ⊢
          simp only [h1, if_true, if_false]
          field_simp
          ring
        · simp [h1, h2]

theorem boundaryStates_rest {g tinyH hAnuga : ℝ} (eta z : ℝ) {bc : BCond} (sn cn : ℝ)
    (hb : bc = .reflecting ∨ bc = .dirichlet (restState eta z)) :
    boundaryStates g tinyH hAnuga bc (restState eta z) sn cn =
      (⟨(restState eta z).h, 0, 0⟩, ⟨(restState eta z).h, 0, 0⟩) := by
  have hv : velocities tinyH hAnuga (restState eta z) = ⟨(restState eta z).h, 0, 0⟩ := by
    unfold velocities restState
    simp
  rcases hb with h | h
  · rw [h]
    simp only [boundaryStates, hv, reflectRight]
    simp
  · rw [h]
    simp only [boundaryStates, hv]

/-- effect of one boundary edge on one owned cell -/
theorem boundaryEdge_rest {P : FlowParams} {pm : PMesh} (hg : 0 < P.g) (ht : 0 < P.tinyH)
    (hinj : OwnedInj pm) (hv : EdgesValid pm) {eta : ℝ} (hf : NoFilm P eta pm)
    (hb : RestBoundaries eta pm) {u : ℕ → Cons}
    (hu : ∀ c < pm.numCells, u c = restState eta (pm.zc c)) (f f' : ℕ → Flux) (e : BEdge)
    (he : e ∈ pm.boundary) (h : boundaryEdge P pm u f e = some f') {c : ℕ} (hc : c < pm.numCells)
    (ho : pm.owned c = true) {k : Flux → ℝ} (hk : LinF k) {n : BEdge → ℝ}
    (hkn : ∀ h, k (pressure P.g h e.sn e.cn) = 0.5 * P.g * h ^ 2 * n e) :
    k (f' (pm.l2o c)) = k (f (pm.l2o c)) + -(0.5 * P.g * (u c).h ^ 2 / pm.area c) *
      (if e.cell = c then e.len * n e else 0) := by
  have hcell := hv.cell e he
  unfold boundaryEdge at h
  by_cases hoe : pm.owned e.cell = true
  · rw [if_pos hoe] at h
    simp only [Option.map_eq_some_iff] at h
    obtain ⟨F, hF, hf'⟩ := h
    have hd : (u e.cell).h = 0 ∨ P.tinyH < (u e.cell).h := by
      rw [hu _ hcell]; exact rest_depth ht (hf _ hcell)
    have hF' : F = pressure P.g (u e.cell).h e.sn e.cn := by
      rw [hu _ hcell] at hF hd ⊢
      rw [boundaryStates_rest eta _ _ _ (hb e he)] at hF
      unfold usedFlux at hF
      rcases hd with hd | hd
      · rw [hd] at hF ⊢
        have : ¬ ¬ ((0 : ℝ) < P.tinyH ∧ (0 : ℝ) < P.tinyH) := by simp [ht]
        rw [if_neg this] at hF
        simp only [Option.some.injEq] at hF
        rw [← hF]
        simp [pressure]
      · have : ¬ ((restState eta (pm.zc e.cell)).h < P.tinyH ∧
            (restState eta (pm.zc e.cell)).h < P.tinyH) := by
          intro h; linarith [h.1]
        rw [if_pos this, roe_rest hg (lt_trans ht hd)] at hF
        simp only [Option.some.injEq] at hF
        exact hF.symm
    rw [← hf', addOwned_cell hinj _ hc ho hcell, hF']
    by_cases h1 : e.cell = c
    · rw [← h1]
      simp only [if_true, hk.add, hk.smul, hkn]
      have := hv.area _ hcell
      field_simp
    · simp [h1]
  · rw [if_neg hoe] at h
    simp only [Option.some.injEq] at h
    subst h
    have : e.cell ≠ c := fun h => hoe (h ▸ ho)
    simp [this]

theorem sum_map_mul (a : ℝ) {α : Type} (d : α → ℝ) (l : List α) :
    (l.map fun x => a * d x).sum = a * (l.map d).sum := List.sum_map_mul_left l d a

/-! ### C43 -/

/-- C43. For every mesh whose cells are closed polygons, every bed and every water level that leaves no
film thinner than `tiny_h` (cells may be dry), with reflecting walls: the right-hand side with
hydrostatic reconstruction and without external sources is defined and zero in every owned cell, for both
friction methods and every roughness. -/
theorem C43_rest_zero {P : FlowParams} (m : FrictionMethod) {pm : PMesh} {dt : ℝ} (mann : ℕ → ℝ)
    {eta : ℝ} {src : ℕ → Flux} {u : ℕ → Cons} (hg : 0 < P.g) (ht : 0 < P.tinyH)
    (hx : 0 < P.xqThreshold) (hdt : 0 ≤ dt) (hinj : OwnedInj pm) (hv : EdgesValid pm)
    (hclosed : ClosedCells pm) (hf : NoFilm P eta pm) (hb : RestBoundaries eta pm)
    (hsrc : ∀ i, src i = ⟨0, 0, 0⟩) (hu : ∀ c < pm.numCells, u c = restState eta (pm.zc c)) :
    ∃ f, rhs P m true pm dt src mann u = some f ∧
      ∀ c < pm.numCells, pm.owned c = true → f (pm.l2o c) = ⟨0, 0, 0⟩ := by
  -- the right-hand side only depends on local cells, but to use definedness for all numbers we show it
  -- directly
  have h1 : (applyInteriorHR P pm u fun _ => Flux.zero).isSome := applyInteriorHR_isSome pm _ ht
  obtain ⟨f1, e1⟩ := Option.isSome_iff_exists.mp h1
  have h2 : (applyBoundary P pm u f1).isSome := by
    unfold applyBoundary
    apply foldlM_isSome
    intro f e he
    unfold boundaryEdge
    split
    · apply isSome_map'
      have hcell := hv.cell e he
      rw [hu _ hcell, boundaryStates_rest eta _ _ _ (hb e he)]
      exact usedFlux_isSome _ _ ht (le_max_left _ _) (le_max_left _ _)
    · rfl
  obtain ⟨fd, e2⟩ := Option.isSome_iff_exists.mp h2
  have hfd : ∀ c < pm.numCells, pm.owned c = true → fd (pm.l2o c) = ⟨0, 0, 0⟩ := by
    intro c hc ho
    have key : ∀ (k : Flux → ℝ) (nI : IEdge → ℝ) (nB : BEdge → ℝ), LinF k →
        (∀ (e : IEdge) h, k (pressure P.g h e.sn e.cn) = 0.5 * P.g * h ^ 2 * nI e) →
        (∀ (e : BEdge) h, k (pressure P.g h e.sn e.cn) = 0.5 * P.g * h ^ 2 * nB e) →
        closureI nI c pm.internal + closureB nB c pm.boundary = 0 → k (fd (pm.l2o c)) = 0 := by
      intro k nI nB hk hI hB hcl
      have s1 := foldlM_sum (hrEdge P pm u) (fun f => k (f (pm.l2o c))) _ pm.internal _ _
        (fun f e f' he hs => hrEdge_rest hg ht hinj hv hf hu f f' e he hs hc ho hk (hI e)) e1
      have s2 := foldlM_sum (boundaryEdge P pm u) (fun f => k (f (pm.l2o c))) _ pm.boundary _ _
        (fun f e f' he hs => boundaryEdge_rest hg ht hinj hv hf hb hu f f' e he hs hc ho hk (hB e)) e2
      simp only [sum_map_mul] at s1 s2
      rw [hk.zero] at s1
      have hcl' := hcl
      unfold closureI closureB at hcl'
      rw [s2, s1, zero_add, ← mul_add]
      rw [hcl', mul_zero]
    obtain ⟨cx, cy⟩ := hclosed c hc ho
    ext
    · refine key Flux.m (fun _ => 0) (fun _ => 0) linF_m (fun _ _ => by simp [pressure])
        (fun _ _ => by simp [pressure]) ?_
      unfold closureI closureB
      have a1 : (pm.internal.map fun e => match e.right with
          | none => (0 : ℝ)
          | some r => (if e.left = c then e.len * 0 else 0) - if r = c then e.len * 0 else 0).sum = 0 := by
        apply List.sum_eq_zero
        intro x hx
        rw [List.mem_map] at hx
        obtain ⟨e, -, rfl⟩ := hx
        cases e.right <;> simp
      have a2 : (pm.boundary.map fun e => if e.cell = c then e.len * (0 : ℝ) else 0).sum = 0 := by
        apply List.sum_eq_zero
        intro x hx
        rw [List.mem_map] at hx
        obtain ⟨e, -, rfl⟩ := hx
        simp
      rw [a1, a2, add_zero]
    · exact key Flux.x _ _ linF_x (fun _ _ => rfl) (fun _ _ => rfl) cx
    · exact key Flux.y _ _ linF_y (fun _ _ => rfl) (fun _ _ => rfl) cy
  have h3 : (applySource P m (!true) pm dt src mann fd u fd).isSome := by
    apply foldlM_isSome
    intro f c _
    unfold sourceCell
    split
    · exact isSome_map' _ (friction_isSome m _ _ _ _ _ _ hg ht hx hdt)
    · rfl
  obtain ⟨f, e3⟩ := Option.isSome_iff_exists.mp h3
  refine ⟨f, ?_, ?_⟩
  · unfold rhs
    rw [if_pos rfl, e1, Option.bind_some, e2, Option.bind_some, e3]
  · intro c hc ho
    obtain ⟨t, t1, t2⟩ := applySource_cell hinj e3 hc ho
    have hb0 : bedTerm P (!true) (pm.dzdx c) (pm.dzdy c) (u c).h = (0, 0) := rfl
    rw [hb0, hfd c hc ho] at t1
    rw [hb0, hfd c hc ho, hsrc] at t2
    have hq : u c = ⟨(u c).h, 0, 0⟩ := by rw [hu c hc]; rfl
    have ht0 : t = (0, 0) := by
      rw [hq] at t1
      cases m with
      | semiImplicit =>
        unfold friction frictionSemiImplicit at t1
        simp only at t1
        split at t1
        · split at t1
          · exact absurd t1 (by simp)
          · simp only [mul_zero, add_zero, sub_zero, zero_mul, Option.some.injEq] at t1
            exact t1.symm
        · simp only [Option.some.injEq] at t1
          exact t1.symm
      | xq2018 =>
        unfold friction frictionXQ2018 at t1
        simp only at t1
        split at t1
        · split at t1
          · exact absurd t1 (by simp)
          · have hs : xqDischarge P dt (mann (pm.l2o c)) (u c).h (0 + (0 - 0) * dt) (0 + (0 - 0) * dt) =
                some (0, 0) := by
              have e : (0 : ℝ) + (0 - 0) * dt = 0 := by ring
              rw [e]
              unfold xqDischarge
              have : xqLambda P (mann (pm.l2o c)) (u c).h 0 0 = 0 := by unfold xqLambda; simp
              rw [this, mul_zero, if_pos hx]
            rw [hs] at t1
            simp only [Option.map_some, mul_zero, zero_mul, Option.some.injEq] at t1
            exact t1.symm
        · simp only [Option.some.injEq] at t1
          exact t1.symm
    rw [t2, ht0]
    simp [Flux.add]

/-- C43. A lake at rest stays at rest: through any number of Euler steps of any sizes, with any roughness,
on any mesh distributed over any number of processes, the state is unchanged in every cell. -/
theorem C43_stays {n : ℕ} {P : FlowParams} (m : FrictionMethod) {pm : Fin n → PMesh}
    {gid : Fin n → ℕ → ℕ} {Z : ℕ → ℝ} {eta : ℝ} (hg : 0 < P.g) (ht : 0 < P.tinyH)
    (hx : 0 < P.xqThreshold) (hinj : ∀ p, OwnedInj (pm p)) (hv : ∀ p, EdgesValid (pm p))
    (hclosed : ∀ p, ClosedCells (pm p)) (hf : ∀ p, NoFilm P eta (pm p))
    (hb : ∀ p, RestBoundaries eta (pm p)) (hz : ∀ p c, (pm p).zc c = Z (gid p c))
    (hown : ∀ p, ∀ c < (pm p).numCells, ∃ q, ∃ c' < (pm q).numCells,
      (pm q).owned c' = true ∧ gid q c' = gid p c)
    (dt : ℕ → ℝ) (hdt : ∀ i, 0 ≤ dt i) (mann : ℕ → Fin n → ℕ → ℝ) (U : ℕ → ℕ → Cons) (N : ℕ)
    (h0 : ∀ p, ∀ c < (pm p).numCells, U 0 (gid p c) = restState eta (Z (gid p c)))
    (h : ∀ i < N, EulerStep P m true pm gid (dt i) (fun _ _ => ⟨0, 0, 0⟩) (mann i) (U i) (U (i + 1))) :
    ∀ p, ∀ c < (pm p).numCells, U N (gid p c) = restState eta (Z (gid p c)) := by
  induction N with
  | zero => exact h0
  | succ N ih =>
    have ih' := ih fun i hi => h i (Nat.lt_succ_of_lt hi)
    have hstep := h N (Nat.lt_succ_self N)
    have owned : ∀ q, ∀ c < (pm q).numCells, (pm q).owned c = true →
        U (N + 1) (gid q c) = restState eta (Z (gid q c)) := by
      intro q c hc ho
      obtain ⟨f, hf1, hf2⟩ := hstep q
      obtain ⟨f', hf3, hf4⟩ := C43_rest_zero (P := P) m (pm := pm q) (dt := dt N) (mann N q) (eta := eta)
        (src := fun _ => ⟨0, 0, 0⟩) (u := fun c => U N (gid q c)) hg ht hx (hdt N) (hinj q) (hv q)
        (hclosed q) (hf q) (hb q) (fun _ => rfl) (fun c hc => by rw [hz]; exact ih' q c hc)
      rw [hf1] at hf3
      simp only [Option.some.injEq] at hf3
      subst hf3
      obtain ⟨a1, a2, a3⟩ := hf2 c hc ho
      rw [hf4 c hc ho] at a1 a2 a3
      simp only [mul_zero, add_zero] at a1 a2 a3
      have := ih' q c hc
      rw [← this]
      cases hU : U (N + 1) (gid q c)
      cases hU' : U N (gid q c)
      simp_all
    intro p c hc
    obtain ⟨q, c', hc', ho', hgid⟩ := hown p c hc
    rw [← hgid]
    exact owned q c' hc' ho'

/-! ### Example and counterexample: two unit squares side by side -/

/-- Two unit squares with bed elevations 0 and `z1`, with walls all around. -/
noncomputable def exSquares (z1 : ℝ) : PMesh where
  numCells := 2
  area _ := 1
  owned _ := true
  l2o c := c
  internal := [⟨0, some 1, 1, 0, 1⟩]
  boundary := [⟨0, 1, 0, -1, .reflecting⟩, ⟨0, 1, 1, 0, .reflecting⟩, ⟨0, 1, -1, 0, .reflecting⟩,
    ⟨1, 1, 0, 1, .reflecting⟩, ⟨1, 1, 1, 0, .reflecting⟩, ⟨1, 1, -1, 0, .reflecting⟩]
  dzdx _ := 0
  dzdy _ := 0
  zc c := if c = 0 then 0 else z1

theorem exSquares_inj (z1 : ℝ) : OwnedInj (exSquares z1) := fun _ _ _ _ _ _ h => h

theorem exSquares_valid (z1 : ℝ) : EdgesValid (exSquares z1) := by
  refine ⟨?_, ?_, ?_, ?_⟩
  · intro e he; simp [exSquares] at he; subst he; simp [exSquares]
  · intro e he r hr; simp [exSquares] at he; subst he; simp at hr; subst hr; simp [exSquares]
  · intro e he
    simp [exSquares] at he
    rcases he with h | h | h | h | h | h <;> subst h <;> simp [exSquares]
  · intro c hc; simp [exSquares]

theorem exSquares_closed (z1 : ℝ) : ClosedCells (exSquares z1) := by
  intro c hc _
  have : c = 0 ∨ c = 1 := by simp [exSquares] at hc; omega
  rcases this with h | h <;> subst h <;> simp [closureI, closureB, exSquares]

theorem exSquares_rest (z1 eta : ℝ) : RestBoundaries eta (exSquares z1) := by
  intro e he
  left
  simp [exSquares] at he
  rcases he with h | h | h | h | h | h <;> subst h <;> rfl

/-- a lake of level 1 beside an island of height 3: the second cell is dry -/
example : ∃ f, rhs exParams .semiImplicit true (exSquares 3) 0.5 (fun _ => ⟨0, 0, 0⟩) (fun _ => 0.03)
      (fun c => if c = 0 then ⟨1, 0, 0⟩ else ⟨0, 0, 0⟩) = some f ∧ f 0 = ⟨0, 0, 0⟩ ∧ f 1 = ⟨0, 0, 0⟩ := by
  obtain ⟨f, h1, h2⟩ := C43_rest_zero (P := exParams) .semiImplicit (pm := exSquares 3) (dt := 0.5)
    (fun _ => 0.03) (eta := 1) (src := fun _ => ⟨0, 0, 0⟩)
    (u := fun c => if c = 0 then ⟨1, 0, 0⟩ else ⟨0, 0, 0⟩) (by norm_num [exParams])
    (by norm_num [exParams]) (by norm_num [exParams]) (by norm_num) (exSquares_inj 3)
    (exSquares_valid 3) (exSquares_closed 3)
    (by
      intro c hc
      by_cases h : c = 0
      · right; simp [exSquares, h, exParams]; norm_num
      · left; simp [exSquares, h])
    (exSquares_rest 3 1) (fun _ => rfl)
    (by
      intro c hc
      by_cases h : c = 0
      · simp [exSquares, h, restState]
      · simp [exSquares, h, restState])
  exact ⟨f, h1, h2 0 (by simp [exSquares]) rfl, h2 1 (by simp [exSquares]) rfl⟩

/-- the same lake through three Euler steps -/
example (U : ℕ → ℕ → Cons) (h0 : U 0 0 = ⟨1, 0, 0⟩) (h1 : U 0 1 = ⟨0, 0, 0⟩)
    (h : ∀ i < 3, EulerStep (n := 1) exParams .xq2018 true (fun _ => exSquares 3) (fun _ c => c) 0.5
      (fun _ _ => ⟨0, 0, 0⟩) (fun _ _ => 0.03) (U i) (U (i + 1))) :
    U 3 0 = ⟨1, 0, 0⟩ := by
  have := C43_stays (n := 1) (P := exParams) .xq2018 (pm := fun _ => exSquares 3) (gid := fun _ c => c)
    (Z := (exSquares 3).zc) (eta := 1) (by norm_num [exParams]) (by norm_num [exParams])
    (by norm_num [exParams]) (fun _ => exSquares_inj 3) (fun _ => exSquares_valid 3)
    (fun _ => exSquares_closed 3)
    (by
      intro p c hc
      by_cases h : c = 0
      · right; simp [exSquares, h, exParams]; norm_num
      · left; simp [exSquares, h])
    (fun _ => exSquares_rest 3 1) (fun _ _ => rfl)
    (fun p c hc => ⟨p, c, hc, rfl, rfl⟩) (fun _ => 0.5) (fun _ => by norm_num) (fun _ _ _ => 0.03) U 3
    (by
      intro p c hc
      have : c = 0 ∨ c = 1 := by simp [exSquares] at hc; omega
      rcases this with h | h
      · subst h; rw [h0]; simp [exSquares, restState]
      · subst h; rw [h1]; simp [exSquares, restState])
    h 0 0 (by simp [exSquares])
  rw [this]
  simp [exSquares, restState]

/-- C43 (disagreement). A film thinner than `tiny_h` breaks the balance: for every `tiny_h` (below 1), a lake
of level 1 that covers the second cell by half of `tiny_h` gets a momentum source in the first cell. -/
theorem C43_film_violated {P : FlowParams} (dt : ℝ) (hg : 0 < P.g) (ht : 0 < P.tinyH) (ht1 : P.tinyH < 1)
    (f : ℕ → Flux)
    (h : rhs P .semiImplicit true (exSquares (1 - P.tinyH / 2)) dt (fun _ => ⟨0, 0, 0⟩) (fun _ => 0)
      (fun c => restState 1 ((exSquares (1 - P.tinyH / 2)).zc c)) = some f) :
    (f 0).x ≠ 0 := by
  have hrest0 : restState 1 0 = ⟨1, 0, 0⟩ := by simp [restState]
  have hrest1 : restState 1 (1 - P.tinyH / 2) = ⟨P.tinyH / 2, 0, 0⟩ := by
    unfold restState
    rw [max_eq_right (by linarith)]
    congr 1; ring
  have hz : max 0 (1 - P.tinyH / 2) = 1 - P.tinyH / 2 := max_eq_right (by linarith)
  unfold rhs at h
  rw [if_pos rfl, Option.bind_eq_some_iff] at h
  obtain ⟨f1, e1, h⟩ := h
  rw [Option.bind_eq_some_iff] at h
  obtain ⟨fd, e2, e3⟩ := h
  -- interior: no flux, only the corrections
  have hf1 : (f1 0).x = -(0.5 * P.g * (1 - (P.tinyH / 2) ^ 2)) := by
    unfold applyInteriorHR at e1
    simp only [exSquares, List.foldlM_cons, List.foldlM_nil] at e1
    simp only [hrEdge, if_true, hrest0] at e1
    have n10 : ¬ ((1 : ℕ) = 0) := by norm_num
    simp only [n10, if_false, hrest1] at e1
    rw [if_neg (by intro h; linarith [h.2])] at e1
    have eL : hrState P 0 (max 0 (1 - P.tinyH / 2)) ⟨1, 0, 0⟩ = ⟨P.tinyH / 2, 0, 0⟩ := by
      unfold hrState
      simp only [zero_mul, zero_div, ite_self]
      rw [hz, max_eq_right (by linarith)]
      congr 1; ring
    have eR : hrState P (1 - P.tinyH / 2) (max 0 (1 - P.tinyH / 2)) ⟨P.tinyH / 2, 0, 0⟩ =
        ⟨P.tinyH / 2, 0, 0⟩ := by
      unfold hrState
      simp only [zero_mul, zero_div, ite_self]
      rw [hz, max_eq_right (by linarith)]
      congr 1; ring
    rw [eL, eR] at e1
    unfold hrFlux at e1
    rw [if_neg (by simp only [gt_iff_lt, or_self, not_lt]; linarith)] at e1
    simp at e1
    rw [← e1]
    simp [addBoth, addOwned, addAt, Flux.add, Flux.smul, Flux.zero, hrCorrection]
    left; ring
  -- boundary: the pressure of the left wall
  have hfd : (fd 0).x = (f1 0).x + 0.5 * P.g := by
    have hp : ∀ sn cn, usedFlux P.g P.tinyH (boundaryStates P.g P.tinyH P.hAnuga .reflecting
        (restState 1 0) sn cn).1 (boundaryStates P.g P.tinyH P.hAnuga .reflecting
        (restState 1 0) sn cn).2 sn cn = some (pressure P.g 1 sn cn) := by
      intro sn cn
      rw [boundaryStates_rest 1 0 sn cn (Or.inl rfl), hrest0]
      unfold usedFlux
      rw [if_pos (by intro h; simp only at h; linarith [h.1])]
      exact roe_rest hg (by norm_num) sn cn
    have s2 := foldlM_sum (boundaryEdge P (exSquares (1 - P.tinyH / 2))
        fun c => restState 1 ((exSquares (1 - P.tinyH / 2)).zc c)) (fun f => (f 0).x)
      (fun e => if e.cell = 0 then -(e.len * (0.5 * P.g * e.cn)) else 0)
      (exSquares (1 - P.tinyH / 2)).boundary f1 fd ?_ e2
    · rw [s2]
      simp [exSquares]
    · intro f e f' he hs
      have hv := exSquares_valid (1 - P.tinyH / 2)
      have hbc : e.bc = .reflecting := by
        simp [exSquares] at he
        rcases he with h | h | h | h | h | h <;> subst h <;> rfl
      by_cases hc : e.cell = 0
      · unfold boundaryEdge at hs
        rw [if_pos (show (exSquares (1 - P.tinyH / 2)).owned e.cell = true from rfl), hbc, hc] at hs
        simp only at hs
        have hz0 : (exSquares (1 - P.tinyH / 2)).zc 0 = 0 := by simp [exSquares]
        rw [hz0, hp] at hs
        simp only [Option.map_some, Option.some.injEq] at hs
        rw [← hs, if_pos hc]
        simp [addOwned, addAt, exSquares, Flux.add, Flux.smul, pressure]
        ring
      · unfold boundaryEdge at hs
        rw [if_pos (show (exSquares (1 - P.tinyH / 2)).owned e.cell = true from rfl)] at hs
        simp only [Option.map_eq_some_iff] at hs
        obtain ⟨F, -, hs⟩ := hs
        rw [← hs, if_neg hc]
        have : (0 : ℕ) ≠ e.cell := fun h => hc h.symm
        simp [addOwned, addAt, exSquares, this]
  have hx : (fd 0).x = 0.5 * P.g * (P.tinyH / 2) ^ 2 := by
    rw [hfd, hf1]; ring
  -- no friction without roughness
  obtain ⟨t, t1, t2⟩ := applySource_cell (exSquares_inj _) e3 (c := 0) (by simp [exSquares]) rfl
  have ht0 : t = (0, 0) := by
    unfold friction frictionSemiImplicit at t1
    simp only [mul_zero, zero_mul, zero_div, add_zero] at t1
    split at t1
    · split at t1
      · exact absurd t1 (by simp)
      · simp only [Option.some.injEq] at t1; exact t1.symm
    · simp only [Option.some.injEq] at t1; exact t1.symm
  have hl2o : (exSquares (1 - P.tinyH / 2)).l2o 0 = 0 := rfl
  rw [hl2o, ht0] at t2
  rw [t2]
  simp only [Flux.add, bedTerm, Bool.not_true, Bool.false_eq_true, if_false, neg_zero, sub_zero, add_zero]
  rw [hx]
  positivity

/-- the right-hand side in question is defined -/
example {P : FlowParams} (dt : ℝ) (hg : 0 < P.g) (ht : 0 < P.tinyH) (hx : 0 < P.xqThreshold) (hdt : 0 ≤ dt) :
    (rhs P .semiImplicit true (exSquares (1 - P.tinyH / 2)) dt (fun _ => ⟨0, 0, 0⟩) (fun _ => 0)
      (fun c => restState 1 ((exSquares (1 - P.tinyH / 2)).zc c))).isSome := by
  refine C39_rhs_defined _ _ _ _ _ hg ht hx hdt (fun c => le_max_left _ _) ?_
  intro e he qb hq
  simp only [exSquares, List.mem_cons, List.not_mem_nil, or_false] at he
  rcases he with rfl | rfl | rfl | rfl | rfl | rfl <;> simp at hq

end RDy
