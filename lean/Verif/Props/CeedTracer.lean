import Verif.Model.CeedTracer
import Verif.Props.BackendsRhs
import Verif.Props.TracerHR
import Verif.Props.TracerMax

/-!
C104: a run with tracers gives the same with CEED as with PETSc.
-/

namespace RDy

open Finset

/-! ### Fluxes -/

/-- Two sides of an edge for which the backends are meant to see the same states: both thinner than the dry
threshold, both deeper, or one thinner and no tracer on the right side (which then must not be exactly dry if it
is the thin one). For all other sides the backends are proved to differ: `C48_tracer_front_violated`,
`C48_tracer_dry_right_violated`. -/
def TAgree (tinyH : ℝ) (qL qR : TCons) : Prop :=
  (qL.q.h < tinyH ∧ qR.q.h < tinyH) ∨
  (tinyH < qL.q.h ∧ tinyH < qR.q.h) ∨
  (tinyH < qL.q.h ∧ qR.q.h < tinyH ∧ qR.q.h ≠ 0 ∧ ∀ j, qR.hc j = 0) ∨
  (qL.q.h < tinyH ∧ tinyH < qR.q.h ∧ ∀ j, qR.hc j = 0)

/-- C104 (fluxes), partial: for the sides of `TAgree` both backends compute the same fluxes of all components with
either solver. -/
theorem C104_flux_partial {g tinyH : ℝ} (sv : TSolver) (n : ℕ) (qL qR : TCons) (sn cn : ℝ) (hg : 0 ≤ g)
    (ht : 0 < tinyH) (h : TAgree tinyH qL qR) :
    tracerFluxCeed sv g tinyH n qL qR sn cn =
      usedTracerFlux sv g tinyH n (tracerVelocities tinyH qL) (tracerVelocities tinyH qR) sn cn := by
  have key : (tinyH < qL.q.h ∨ tinyH < qR.q.h) →
      tracerVelocitiesCeed tinyH qL qR = some (tracerVelocities tinyH qL, tracerVelocities tinyH qR) →
      tracerFluxCeed sv g tinyH n qL qR sn cn =
        usedTracerFlux sv g tinyH n (tracerVelocities tinyH qL) (tracerVelocities tinyH qR) sn cn := by
    intro hw hv
    have hn : ¬ ((tracerVelocities tinyH qR).p.h < tinyH ∧ (tracerVelocities tinyH qL).p.h < tinyH) := by
      rw [tracerVelocities_h, tracerVelocities_h]
      rintro ⟨a, b⟩
      rcases hw with h | h <;> linarith
    unfold tracerFluxCeed usedTracerFlux tracerFlux
    rw [if_pos hw, if_pos hn, hv]
    simp only [Option.bind_some, roeEigCeed_eq hg]
  rcases h with ⟨hL, hR⟩ | ⟨hL, hR⟩ | ⟨hL, hR, h0, hc⟩ | ⟨hL, hR, hc⟩
  · unfold tracerFluxCeed usedTracerFlux
    rw [if_neg (not_or.mpr ⟨not_lt.mpr hL.le, not_lt.mpr hR.le⟩), tracerVelocities_h, tracerVelocities_h,
      if_neg (not_not.mpr ⟨hR, hL⟩)]
  · exact C48_tracer_partial sv n qL qR sn cn hg ht hL hR
  · refine key (Or.inl hL) ?_
    have l0 : qL.q.h ≠ 0 := by linarith
    have hr : ¬ qR.q.h > tinyH := not_lt.mpr hR.le
    have hn : ¬ (qL.q.h > tinyH ∧ (qL.q.h = 0 ∨ qR.q.h = 0)) := by
      rintro ⟨-, a | a⟩
      · exact l0 a
      · exact h0 a
    unfold tracerVelocitiesCeed tracerVelocities safeDiv
    simp only [if_pos hL, if_neg hr, if_neg l0, Option.bind_some, if_neg hn, if_neg (not_lt.mpr hL.le),
      if_pos hR, hc, zero_div]
  · refine key (Or.inr hR) ?_
    have r0 : qR.q.h ≠ 0 := by linarith
    have hl : ¬ qL.q.h > tinyH := not_lt.mpr hL.le
    have hn : ¬ (qL.q.h > tinyH ∧ (qL.q.h = 0 ∨ qR.q.h = 0)) := fun a => hl a.1
    unfold tracerVelocitiesCeed tracerVelocities safeDiv
    simp only [if_pos hR, if_neg hl, if_neg r0, Option.bind_some, if_neg hn, if_neg (not_lt.mpr hR.le),
      if_pos hL, hc, zero_div]

/-- clean water beside a dry cell -/
example : tracerFluxCeed .upwind 9.806 1e-7 2 ⟨⟨0, 0, 0⟩, fun _ => 0⟩ ⟨⟨1, 2, 0⟩, fun _ => 0⟩ 0.6 0.8 =
    usedTracerFlux .upwind 9.806 1e-7 2 (tracerVelocities 1e-7 ⟨⟨0, 0, 0⟩, fun _ => 0⟩)
      (tracerVelocities 1e-7 ⟨⟨1, 2, 0⟩, fun _ => 0⟩) 0.6 0.8 :=
  C104_flux_partial .upwind 2 _ _ 0.6 0.8 (by norm_num) (by norm_num)
    (Or.inr (Or.inr (Or.inr ⟨by norm_num, by norm_num, fun _ => rfl⟩)))

/-- C104 (walls): at a reflecting boundary both backends compute the same fluxes of all components, with either
solver, for every depth other than the dry threshold itself and every normal. -/
theorem C104_reflecting {P : FlowParams} (sv : TSolver) (n : ℕ) (q : TCons) (sn cn : ℝ) (hg : 0 ≤ P.g)
    (ht : 0 < P.tinyH) (hq : q.q.h ≠ P.tinyH) :
    boundaryTFluxCeed sv P n .reflecting q sn cn =
      usedTracerFlux sv P.g P.tinyH n (tracerVelocities P.tinyH q)
        (tracerRight P.tinyH .reflecting (tracerVelocities P.tinyH q) sn cn) sn cn := by
  unfold boundaryTFluxCeed
  dsimp only
  by_cases hw : q.q.h > P.tinyH
  · rw [if_pos hw, C48_tracer_partial sv n q (reflectTCeed q sn cn) sn cn hg ht hw hw]
    have e : tracerVelocities P.tinyH (reflectTCeed q sn cn) =
        tracerRight P.tinyH .reflecting (tracerVelocities P.tinyH q) sn cn := by
      unfold tracerRight
      dsimp only
      unfold tracerVelocities reflectTCeed reflectRight
      dsimp only
      rw [if_neg (not_lt.mpr hw.le), if_neg (not_lt.mpr hw.le)]
      congr 2
      · ring
      · ring
    rw [e]
  · have hd : q.q.h < P.tinyH := lt_of_le_of_ne (not_lt.mp hw) hq
    rw [if_neg hw]
    unfold usedTracerFlux
    have e1 : (tracerVelocities P.tinyH q).p.h = q.q.h := tracerVelocities_h _ _
    have e2 : (tracerRight P.tinyH .reflecting (tracerVelocities P.tinyH q) sn cn).p.h = q.q.h := e1
    rw [e1, e2, if_neg (not_not.mpr ⟨hd, hd⟩)]

example : boundaryTFluxCeed .roe exParams 2 .reflecting ⟨⟨2, 1, -1⟩, fun j => j⟩ 0.6 0.8 =
    usedTracerFlux .roe exParams.g exParams.tinyH 2 (tracerVelocities exParams.tinyH ⟨⟨2, 1, -1⟩, fun j => j⟩)
      (tracerRight exParams.tinyH .reflecting (tracerVelocities exParams.tinyH ⟨⟨2, 1, -1⟩, fun j => j⟩) 0.6 0.8)
      0.6 0.8 :=
  C104_reflecting .roe 2 _ 0.6 0.8 (by norm_num [exParams]) (by norm_num [exParams]) (by norm_num [exParams])

/-- The boundary edges at which the backends agree. -/
def TRegularEdge (P : FlowParams) (q : TCons) (e : TBEdge) : Prop :=
  match e.bc with
  | .dirichlet s => TAgree P.tinyH q s
  | .reflecting => True

theorem boundaryTFluxCeed_eq {P : FlowParams} {sv : TSolver} {n : ℕ} {q : TCons} {e : TBEdge} (hg : 0 ≤ P.g)
    (ht : 0 < P.tinyH) (hq : q.q.h ≠ P.tinyH) (he : TRegularEdge P q e) :
    boundaryTFluxCeed sv P n e.bc q e.sn e.cn =
      usedTracerFlux sv P.g P.tinyH n (tracerVelocities P.tinyH q)
        (tracerRight P.tinyH e.bc (tracerVelocities P.tinyH q) e.sn e.cn) e.sn e.cn := by
  unfold TRegularEdge at he
  cases hb : e.bc with
  | dirichlet s =>
    rw [hb] at he
    exact C104_flux_partial sv n q s e.sn e.cn hg ht he
  | reflecting => exact C104_reflecting sv n q e.sn e.cn hg ht hq

theorem addOwnedT_all {pm : PMesh} (h : ∀ c, pm.owned c = true) (f : ℕ → ℕ → ℝ) (c : ℕ) (F : ℕ → ℝ) (s : ℝ) :
    addOwnedT pm f c F s = addAtT f (pm.l2o c) F s := by
  unfold addOwnedT addAtT
  rw [if_pos (h c)]

/-- The reconstructed sides for which the backends agree: both deeper than the dry threshold or neither. -/
def TAgreeHR (P : FlowParams) (zL zR : ℝ) (qL qR : TCons) : Prop :=
  (P.tinyH < max 0 (qL.q.h + zL - max zL zR) ∧ P.tinyH < max 0 (qR.q.h + zR - max zL zR)) ∨
  (max 0 (qL.q.h + zL - max zL zR) ≤ P.tinyH ∧ max 0 (qR.q.h + zR - max zL zR) ≤ P.tinyH)

theorem hrTFluxCeed_agree {P : FlowParams} (n : ℕ) (zL zR : ℝ) (qL qR : TCons) (sn cn : ℝ) (hg : 0 ≤ P.g)
    (ht : 0 < P.tinyH) (hqL : 0 ≤ qL.q.h) (h : TAgreeHR P zL zR qL qR) :
    hrTFluxCeed P n zL zR qL qR sn cn =
      hrTFlux .roe P n (hrTState P zL (max zL zR) qL) (hrTState P zR (max zL zR) qR) sn cn := by
  rcases h with ⟨hL, hR⟩ | ⟨hL, hR⟩
  · exact C83_ceed_partial n zL zR qL qR sn cn hg ht hqL hL hR
  · have e1 : hrTFlux .roe P n (hrTState P zL (max zL zR) qL) (hrTState P zR (max zL zR) qR) sn cn =
        some fun _ => 0 := by
      unfold hrTFlux
      exact if_neg (not_or.mpr ⟨not_lt.mpr hL, not_lt.mpr hR⟩)
    have e2 : tracerFluxCeed .roe P.g P.tinyH n (hrTStateCeed P zL (max zL zR) qL)
        (hrTStateCeed P zR (max zL zR) qR) sn cn = some fun _ => 0 := by
      unfold tracerFluxCeed
      exact if_neg (not_or.mpr ⟨not_lt.mpr hL, not_lt.mpr hR⟩)
    unfold hrTFluxCeed
    rw [e1, e2, ite_self]

theorem ceedTEdge_eq {P : FlowParams} {sv : TSolver} {n : ℕ} {pm : PMesh} {u : ℕ → TCons} (hg : 0 ≤ P.g)
    (ht : 0 < P.tinyH) (hown : ∀ c, pm.owned c = true) (e : IEdge)
    (ha : ∀ r, e.right = some r → TAgree P.tinyH (u e.left) (u r)) (f : ℕ → ℕ → ℝ) :
    ceedTEdge sv P n pm u f e = tracerEdge sv P n pm u f e := by
  unfold ceedTEdge tracerEdge
  cases hr : e.right with
  | none => rfl
  | some r =>
    dsimp only
    rw [C104_flux_partial sv n (u e.left) (u r) e.sn e.cn hg ht (ha r hr)]
    simp only [addOwnedT_all hown]

theorem ceedTEdgeHR_eq {P : FlowParams} {n : ℕ} {pm : PMesh} {u : ℕ → TCons} (hg : 0 ≤ P.g)
    (ht : 0 < P.tinyH) (hown : ∀ c, pm.owned c = true) (hv : EdgesValid pm)
    (hu : ∀ c < pm.numCells, (u c).q.h ≠ P.tinyH) (hn : ∀ c < pm.numCells, 0 ≤ (u c).q.h) (e : IEdge)
    (he : e ∈ pm.internal)
    (ha : ∀ r, e.right = some r → TAgreeHR P (pm.zc e.left) (pm.zc r) (u e.left) (u r)) (f : ℕ → ℕ → ℝ) :
    ceedTEdgeHR P n pm u f e = hrTEdge .roe P n pm u f e := by
  unfold ceedTEdgeHR hrTEdge
  cases hr : e.right with
  | none => rfl
  | some r =>
    dsimp only
    have hL := hu _ (hv.left e he)
    have hR := hu _ (hv.right e he r hr)
    by_cases hw : (u e.left).q.h > P.tinyH ∨ (u r).q.h > P.tinyH
    · have hw' : ¬ ((u r).q.h < P.tinyH ∧ (u e.left).q.h < P.tinyH) := by
        rintro ⟨a, b⟩
        rcases hw with h | h <;> linarith
      rw [if_pos hw, if_neg hw',
        hrTFluxCeed_agree n _ _ _ _ e.sn e.cn hg ht (hn _ (hv.left e he)) (ha r hr)]
      congr 1
      funext F k d
      simp only [addOwnedT_all hown, addAtT, hrTStateCeed, hrTState]
      by_cases h1 : k = pm.l2o r
      · by_cases h2 : k = pm.l2o e.left
        · simp only [if_pos h1, if_pos h2]
          ring
        · simp only [if_pos h1, if_neg h2]
          ring
      · by_cases h2 : k = pm.l2o e.left
        · simp only [if_neg h1, if_pos h2]
          ring
        · simp only [if_neg h1, if_neg h2]
    · rw [not_or, not_lt, not_lt] at hw
      rw [if_neg (not_or.mpr ⟨not_lt.mpr hw.1, not_lt.mpr hw.2⟩),
        if_pos ⟨lt_of_le_of_ne hw.2 hR, lt_of_le_of_ne hw.1 hL⟩]

/-! ### Sources -/

/-- C104 (friction): both backends compute the same friction term in a run with tracers, whatever the
regularisation, unless the depth equals the dry threshold. -/
theorem C104_friction {P : FlowParams} (dt n : ℝ) (q : Cons) (Fx Fy bx bY : ℝ) (ht : 0 < P.tinyH)
    (hq : q.h ≠ P.tinyH) :
    frictionTCeed P dt n q Fx Fy bx bY = frictionSemiImplicit P dt n q Fx Fy bx bY := by
  unfold frictionTCeed frictionSemiImplicit
  by_cases hw : q.h > P.tinyH
  · have h0 : q.h ≠ 0 := by linarith
    rw [if_pos hw, if_pos hw.le]
    unfold safeDiv
    simp only [if_pos hw, if_neg h0, Option.bind_some]
    by_cases hz : q.h = 0 ∨ 1 + dt * (P.g * (n * n) * q.h ^ (-(1 : ℝ) / 3) *
        √(q.hu / q.h * (q.hu / q.h) + q.hv / q.h * (q.hv / q.h)) / q.h) = 0
    · rw [if_pos hz, if_pos hz]
    · rw [if_neg hz, if_neg hz]
      congr 2 <;> ring
  · have hd : ¬ q.h ≥ P.tinyH := not_le.mpr (lt_of_le_of_ne (not_lt.mp hw) hq)
    rw [if_neg hw, if_neg hd]

example : frictionTCeed ⟨9.806, 1e-7, 1, 0⟩ 0.5 0.03 ⟨2, 1, -1⟩ 0.1 0.2 0.3 0.4 =
    frictionSemiImplicit ⟨9.806, 1e-7, 1, 0⟩ 0.5 0.03 ⟨2, 1, -1⟩ 0.1 0.2 0.3 0.4 :=
  C104_friction 0.5 0.03 _ 0.1 0.2 0.3 0.4 (by norm_num) (by norm_num)

/-- The cells at which the source operators agree: deeper than the dry threshold, or thinner and without external
source of a tracer (see `C66_dry_source_violated`). -/
def TSourceAgree (P : FlowParams) (n : ℕ) (src : ℕ → ℝ) (s : TCons) : Prop :=
  P.tinyH < s.q.h ∨ (s.q.h < P.tinyH ∧ ∀ j < n, src (3 + j) = 0)

theorem tracerSource_eq {P : FlowParams} {n : ℕ} (mann : ℝ) {src : ℕ → ℝ} {s : TCons}
    (h : TSourceAgree P n src s) {j : ℕ} (hj : j < n) :
    tracerSourceCeed P mann s (src (3 + j)) j = tracerSource P mann s (src (3 + j)) j := by
  unfold tracerSourceCeed tracerSource
  rcases h with h | ⟨h, hs⟩
  · rw [if_pos h, if_pos h.le]
  · rw [if_neg (not_lt.mpr h.le), if_neg (not_le.mpr h), hs j hj, add_zero]

theorem ceedTSourceCell_eq {P : FlowParams} (slope : Bool) {n : ℕ} {pm : PMesh} (dt : ℝ) (src : ℕ → ℕ → ℝ)
    (mann : ℕ → ℝ) (fd : ℕ → ℕ → ℝ) (u : ℕ → TCons) (f : ℕ → ℕ → ℝ) {c : ℕ} (ht : 0 < P.tinyH)
    (ho : pm.owned c = true) (hm : mann (pm.l2o c) = mann c) (ha : TSourceAgree P n (src (pm.l2o c)) (u c))
    (hf : f (pm.l2o c) = fd (pm.l2o c)) :
    ceedTSourceCell P slope n pm dt src mann fd u f c = tracerSourceCell P slope n pm dt src mann fd u f c := by
  have hq : (u c).q.h ≠ P.tinyH := by
    rcases ha with h | h
    · exact ne_of_gt h
    · exact ne_of_lt h.1
  unfold ceedTSourceCell tracerSourceCell
  rw [if_pos ho, if_pos ho]
  unfold cellTRhsCeed tracerManningIndex
  rw [C104_friction dt _ _ _ _ _ _ ht hq, Option.map_map, hm]
  congr 1
  funext t k
  simp only [Function.comp]
  unfold addOwnedT
  rw [if_pos ho]
  by_cases hk : k = pm.l2o c
  · subst hk
    rw [Function.update_self, if_pos rfl, hf]
    funext d
    by_cases h0 : d = 0
    · subst h0; simp
    by_cases h1 : d = 1
    · subst h1; simp; ring
    by_cases h2 : d = 2
    · subst h2; simp; ring
    simp only [if_neg h0, if_neg h1, if_neg h2]
    by_cases h3 : d - 3 < n
    · simp only [if_pos h3, mul_one]
      obtain ⟨j, rfl⟩ : ∃ j, d = 3 + j := ⟨d - 3, by omega⟩
      have hj : 3 + j - 3 = j := by omega
      rw [hj] at h3
      simp only [hj, tracerSource_eq (mann c) ha h3]
    · simp only [if_neg h3, zero_mul, add_zero]
  · rw [Function.update_of_ne hk, if_neg hk]

theorem tSourceFold_eq {P : FlowParams} (slope : Bool) {n : ℕ} {pm : PMesh} (dt : ℝ) (src : ℕ → ℕ → ℝ)
    (mann : ℕ → ℝ) (fd : ℕ → ℕ → ℝ) (u : ℕ → TCons) (ht : 0 < P.tinyH) (hinj : OwnedInj pm)
    (hm : ∀ c < pm.numCells, mann (pm.l2o c) = mann c)
    (ha : ∀ c < pm.numCells, TSourceAgree P n (src (pm.l2o c)) (u c)) :
    ∀ (l : List ℕ), l.Nodup → (∀ c ∈ l, c < pm.numCells) → ∀ f : ℕ → ℕ → ℝ,
      (∀ c ∈ l, pm.owned c = true → f (pm.l2o c) = fd (pm.l2o c)) →
      l.foldlM (ceedTSourceCell P slope n pm dt src mann fd u) f =
        l.foldlM (tracerSourceCell P slope n pm dt src mann fd u) f
  | [], _, _, f, _ => rfl
  | c :: l, hnd, hlt, f, hf => by
    rw [List.nodup_cons] at hnd
    have hc := hlt c (by simp)
    have hlt' : ∀ c' ∈ l, c' < pm.numCells := fun c' h => hlt c' (by simp [h])
    rw [List.foldlM_cons, List.foldlM_cons]
    by_cases ho : pm.owned c = true
    · rw [ceedTSourceCell_eq slope dt src mann fd u f ht ho (hm c hc) (ha c hc) (hf c (by simp) ho)]
      cases hs : tracerSourceCell P slope n pm dt src mann fd u f c with
      | none => rfl
      | some f1 =>
        refine tSourceFold_eq slope dt src mann fd u ht hinj hm ha l hnd.2 hlt' f1 ?_
        intro c' hc' ho'
        have hne : pm.l2o c' ≠ pm.l2o c := by
          intro h
          have := hinj c' (hlt' c' hc') c hc ho' ho h
          exact hnd.1 (this ▸ hc')
        rw [← hf c' (by simp [hc']) ho']
        unfold tracerSourceCell at hs
        rw [if_pos ho] at hs
        simp only [Option.map_eq_some_iff] at hs
        obtain ⟨t, -, rfl⟩ := hs
        unfold addOwnedT
        rw [if_pos ho]
        simp only [if_neg hne]
    · have e1 : ceedTSourceCell P slope n pm dt src mann fd u f c = some f := by
        unfold ceedTSourceCell; rw [if_neg ho]
      have e2 : tracerSourceCell P slope n pm dt src mann fd u f c = some f := by
        unfold tracerSourceCell; rw [if_neg ho]
      rw [e1, e2]
      exact tSourceFold_eq slope dt src mann fd u ht hinj hm ha l hnd.2 hlt' f (fun c' h => hf c' (by simp [h]))

/-! ### The whole right-hand side -/

/-- The states for which the backends agree about a run with tracers on mesh `pm` with boundaries `bnd`. -/
structure TSame (hr : Bool) (sv : TSolver) (P : FlowParams) (n : ℕ) (pm : PMesh) (bnd : List TBEdge)
    (src : ℕ → ℕ → ℝ) (u : ℕ → TCons) : Prop where
  /-- in every cell the source operators agree (so no depth is the dry threshold) -/
  cells : ∀ c < pm.numCells, TSourceAgree P n (src (pm.l2o c)) (u c)
  /-- at every internal edge the Riemann solvers see the same states -/
  edges : hr = false → ∀ e ∈ pm.internal, ∀ r, e.right = some r → TAgree P.tinyH (u e.left) (u r)
  /-- with hydrostatic reconstruction: Roe's solver, no negative depths, and reconstructed sides as in `TAgreeHR` -/
  roe : hr = true → sv = .roe
  nonneg : hr = true → ∀ c < pm.numCells, 0 ≤ (u c).q.h
  edgesHR : hr = true → ∀ e ∈ pm.internal, ∀ r, e.right = some r →
    TAgreeHR P (pm.zc e.left) (pm.zc r) (u e.left) (u r)
  /-- at every boundary edge the Riemann solvers see the same states -/
  boundary : ∀ e ∈ bnd, TRegularEdge P (u e.cell) e

theorem ceedTDiv_eq {hr : Bool} {sv : TSolver} {P : FlowParams} {n : ℕ} {pm : PMesh} {bnd : List TBEdge}
    {src : ℕ → ℕ → ℝ} {u : ℕ → TCons} (hg : 0 ≤ P.g) (ht : 0 < P.tinyH) (hown : ∀ c, pm.owned c = true)
    (hv : EdgesValid pm) (hbv : BndValid pm bnd) (hs : TSame hr sv P n pm bnd src u) :
    ceedTDiv hr sv P n pm bnd u = tracerDiv hr sv P n pm bnd u := by
  have hu : ∀ c < pm.numCells, (u c).q.h ≠ P.tinyH := by
    intro c hc
    rcases hs.cells c hc with h | h
    · exact ne_of_gt h
    · exact ne_of_lt h.1
  have hbd : ∀ f, bnd.foldlM (ceedTBEdge sv P n pm u) f = bnd.foldlM (tracerBEdge sv P n pm u) f := by
    intro f
    refine foldlM_congr_mem _ ?_ f
    intro e he f
    unfold ceedTBEdge tracerBEdge
    rw [if_pos (hown _), boundaryTFluxCeed_eq hg ht (hu _ (hbv e he)) (hs.boundary e he)]
    simp only [addOwnedT_all hown]
  cases hr with
  | false =>
    unfold ceedTDiv tracerDiv tracerDivergence
    simp only [Bool.false_eq_true, if_false]
    rw [foldlM_congr_mem pm.internal (fun e he f => ceedTEdge_eq (sv := sv) (n := n) hg ht hown e
      (hs.edges rfl e he) f)]
    simp only [hbd]
  | true =>
    obtain rfl := hs.roe rfl
    unfold ceedTDiv tracerDiv tracerDivergenceHR
    simp only [if_true]
    rw [foldlM_congr_mem pm.internal (fun e he f => ceedTEdgeHR_eq (n := n) hg ht hown hv hu (hs.nonneg rfl) e he
      (hs.edgesHR rfl e he) f)]
    simp only [hbd]

/-- C104 (right-hand side), partial: on one process, for any mesh, any number of tracers and any state of `TSame`,
both backends compute the same right-hand side of a run with tracers (and fail for the same states), with either
solver, with and without hydrostatic reconstruction. Missing: the states for which the backends are proved to differ
(fronts of water that carries tracers, thin right sides, external sources in dry cells, the upwind solver with
hydrostatic reconstruction), runs in which the local number of a cell is not its owned number (the PETSc operators
then read another cell's roughness: the hypothesis `hm`), and salinity and heat (`C104_salinity_violated`). -/
theorem C104_rhs_partial {hr : Bool} {sv : TSolver} {P : FlowParams} {n : ℕ} {pm : PMesh} {bnd : List TBEdge}
    (dt : ℝ) {src : ℕ → ℕ → ℝ} {mann : ℕ → ℝ} {u : ℕ → TCons} (hg : 0 ≤ P.g) (ht : 0 < P.tinyH)
    (hown : ∀ c, pm.owned c = true) (hv : EdgesValid pm) (hbv : BndValid pm bnd) (hinj : OwnedInj pm)
    (hm : ∀ c < pm.numCells, mann (pm.l2o c) = mann c) (hs : TSame hr sv P n pm bnd src u) :
    ceedTracerRhs hr sv P n pm bnd dt src mann u = tracerRhs hr sv P n pm bnd dt src mann u := by
  unfold ceedTracerRhs tracerRhs applyTracerSource
  rw [ceedTDiv_eq hg ht hown hv hbv hs]
  congr 1
  funext fd
  exact tSourceFold_eq (!hr) dt src mann fd u ht hinj hm hs.cells _ List.nodup_range
    (fun c hc => List.mem_range.mp hc) fd (fun _ _ _ => rfl)

/-- the boundaries of the two squares of the examples: inflow with tracers on the left, walls elsewhere -/
noncomputable def exTBnd : List TBEdge :=
  [⟨0, 1, 0, -1, .dirichlet ⟨⟨2, 1, 0⟩, fun _ => 1⟩⟩, ⟨0, 1, 1, 0, .reflecting⟩, ⟨0, 1, -1, 0, .reflecting⟩,
    ⟨1, 1, 0, 1, .reflecting⟩, ⟨1, 1, 1, 0, .reflecting⟩, ⟨1, 1, -1, 0, .reflecting⟩]

theorem exTBnd_valid (z1 : ℝ) : BndValid (exSquares z1) exTBnd := by
  intro e he
  simp only [exTBnd, List.mem_cons, List.not_mem_nil, or_false] at he
  rcases he with h | h | h | h | h | h <;> subst h <;> simp [exSquares]

/-- two cells with water and two tracers, over a step when reconstructed -/
theorem exTSame (hr : Bool) : TSame hr .roe exParams 2 (exSquares 1) exTBnd (fun _ _ => 1e-3)
    (fun c => ⟨⟨3 - c, 1, 0.5⟩, fun j => 1 + j⟩) := by
  constructor
  · intro c hc
    have : c = 0 ∨ c = 1 := by simp [exSquares] at hc; omega
    rcases this with rfl | rfl <;> exact Or.inl (by norm_num [exParams])
  · intro _ e he r hr
    simp [exSquares] at he
    subst he
    simp at hr
    subst hr
    exact Or.inr (Or.inl (by norm_num [exParams]))
  · intro _; rfl
  · intro _ c hc
    have : c = 0 ∨ c = 1 := by simp [exSquares] at hc; omega
    rcases this with rfl | rfl <;> norm_num
  · intro _ e he r hr
    simp [exSquares] at he
    subst he
    simp at hr
    subst hr
    exact Or.inl (by norm_num [exParams, exSquares])
  · intro e he
    simp only [exTBnd, List.mem_cons, List.not_mem_nil, or_false] at he
    rcases he with h | h | h | h | h | h <;> subst h
    · exact Or.inr (Or.inl (by norm_num [exParams]))
    all_goals trivial

example (hr : Bool) :
    ceedTracerRhs hr .roe exParams 2 (exSquares 1) exTBnd 0.5 (fun _ _ => 1e-3) (fun c => 0.03 + c)
      (fun c => ⟨⟨3 - c, 1, 0.5⟩, fun j => 1 + j⟩) =
    tracerRhs hr .roe exParams 2 (exSquares 1) exTBnd 0.5 (fun _ _ => 1e-3) (fun c => 0.03 + c)
      (fun c => ⟨⟨3 - c, 1, 0.5⟩, fun j => 1 + j⟩) :=
  C104_rhs_partial 0.5 (by norm_num [exParams]) (by norm_num [exParams]) (fun _ => rfl) (exSquares_valid 1)
    (exTBnd_valid 1) (exSquares_inj 1) (fun _ _ => rfl) (exTSame hr)

/-- What one explicit step does with the right-hand side `f` (specification): every conserved quantity of every cell
grows by `dt` times its rate. -/
def tStep (pm : PMesh) (dt : ℝ) (u : ℕ → TCons) (f : ℕ → ℕ → ℝ) : ℕ → TCons := fun c =>
  ⟨⟨(u c).q.h + dt * f (pm.l2o c) 0, (u c).q.hu + dt * f (pm.l2o c) 1, (u c).q.hv + dt * f (pm.l2o c) 2⟩,
    fun j => (u c).hc j + dt * f (pm.l2o c) (3 + j)⟩

/-- The states of a run with a given right-hand side (specification); `none` once a NaN has appeared. -/
def tRun (pm : PMesh) (dt : ℕ → ℝ) (rhs : ℕ → (ℕ → TCons) → Option (ℕ → ℕ → ℝ)) (u0 : ℕ → TCons) :
    ℕ → Option (ℕ → TCons)
  | 0 => some u0
  | i + 1 => (tRun pm dt rhs u0 i).bind fun u => (rhs i u).map (tStep pm (dt i) u)

/-- C104 (runs), partial: a run of any number of steps gives the same states with both backends, as long as the
states that the PETSc backend passes through are those of `TSame`. -/
theorem C104_run_partial {hr : Bool} {sv : TSolver} {P : FlowParams} {n : ℕ} {pm : PMesh} {bnd : List TBEdge}
    (dt : ℕ → ℝ) {src : ℕ → ℕ → ℕ → ℝ} {mann : ℕ → ℝ} {u0 : ℕ → TCons} (hg : 0 ≤ P.g) (ht : 0 < P.tinyH)
    (hown : ∀ c, pm.owned c = true) (hv : EdgesValid pm) (hbv : BndValid pm bnd) (hinj : OwnedInj pm)
    (hm : ∀ c < pm.numCells, mann (pm.l2o c) = mann c) (N : ℕ)
    (hs : ∀ i < N, ∀ u, tRun pm dt (fun i u => tracerRhs hr sv P n pm bnd (dt i) (src i) mann u) u0 i = some u →
      TSame hr sv P n pm bnd (src i) u) :
    tRun pm dt (fun i u => ceedTracerRhs hr sv P n pm bnd (dt i) (src i) mann u) u0 N =
      tRun pm dt (fun i u => tracerRhs hr sv P n pm bnd (dt i) (src i) mann u) u0 N := by
  induction N with
  | zero => rfl
  | succ N ih =>
    have ih' := ih fun i hi => hs i (Nat.lt_succ_of_lt hi)
    simp only [tRun]
    rw [ih']
    cases hu : tRun pm dt (fun i u => tracerRhs hr sv P n pm bnd (dt i) (src i) mann u) u0 N with
    | none => rfl
    | some u =>
      simp only [Option.bind_some]
      rw [C104_rhs_partial (dt N) hg ht hown hv hbv hinj hm (hs N (Nat.lt_succ_self N) u hu)]

example (hr : Bool) :
    tRun (exSquares 1) (fun _ => 0.5) (fun _ u => ceedTracerRhs hr .roe exParams 2 (exSquares 1) exTBnd 0.5
      (fun _ _ => 1e-3) (fun c => 0.03 + c) u) (fun c => ⟨⟨3 - c, 1, 0.5⟩, fun j => 1 + j⟩) 1 =
    tRun (exSquares 1) (fun _ => 0.5) (fun _ u => tracerRhs hr .roe exParams 2 (exSquares 1) exTBnd 0.5
      (fun _ _ => 1e-3) (fun c => 0.03 + c) u) (fun c => ⟨⟨3 - c, 1, 0.5⟩, fun j => 1 + j⟩) 1 :=
  C104_run_partial (fun _ => 0.5) (src := fun _ _ _ => 1e-3) (by norm_num [exParams]) (by norm_num [exParams])
    (fun _ => rfl) (exSquares_valid 1) (exTBnd_valid 1) (exSquares_inj 1) (fun _ _ => rfl) 1
    (by
      intro i hi u hu
      obtain rfl : i = 0 := by omega
      obtain rfl := Option.some.inj hu
      exact exTSame hr)

/-! ### What CEED guarantees by itself -/

theorem ceedTEdge_total {sv : TSolver} {P : FlowParams} {n d : ℕ} {pm : PMesh} (hown : ∀ c, pm.owned c = true)
    (hinj : OwnedInj pm) (hv : EdgesValid pm) (u : ℕ → TCons) (f f' : ℕ → ℕ → ℝ) (e : IEdge)
    (he : e ∈ pm.internal) (h : ceedTEdge sv P n pm u f e = some f') :
    ownedTotalT pm d f' = ownedTotalT pm d f + 0 := by
  unfold ceedTEdge at h
  cases hr : e.right with
  | none =>
    rw [hr] at h
    obtain rfl := Option.some.inj h
    rw [add_zero]
  | some r =>
    rw [hr] at h
    dsimp only at h
    rw [Option.map_eq_some_iff] at h
    obtain ⟨F, -, rfl⟩ := h
    have hl := hv.left e he
    have hrr := hv.right e he r hr
    have al := hv.area _ hl
    have ar := hv.area _ hrr
    rw [← addOwnedT_all hown, ← addOwnedT_all hown, ownedTotalT_add hinj _ _ hrr, ownedTotalT_add hinj _ _ hl,
      if_pos (hown _), if_pos (hown _)]
    field_simp
    ring

theorem ceedTEdgeHR_total {P : FlowParams} {n d : ℕ} {pm : PMesh} (hown : ∀ c, pm.owned c = true)
    (hinj : OwnedInj pm) (hv : EdgesValid pm) (u : ℕ → TCons) (hd1 : d ≠ 1) (hd2 : d ≠ 2) (f f' : ℕ → ℕ → ℝ)
    (e : IEdge) (he : e ∈ pm.internal) (h : ceedTEdgeHR P n pm u f e = some f') :
    ownedTotalT pm d f' = ownedTotalT pm d f + 0 := by
  unfold ceedTEdgeHR at h
  cases hr : e.right with
  | none =>
    rw [hr] at h
    obtain rfl := Option.some.inj h
    rw [add_zero]
  | some r =>
    rw [hr] at h
    dsimp only at h
    split at h
    · rw [Option.map_eq_some_iff] at h
      obtain ⟨F, -, rfl⟩ := h
      have hl := hv.left e he
      have hrr := hv.right e he r hr
      have al := hv.area _ hl
      have ar := hv.area _ hrr
      rw [← addOwnedT_all hown, ← addOwnedT_all hown, ownedTotalT_add hinj _ _ hrr, ownedTotalT_add hinj _ _ hl,
        if_pos (hown _), if_pos (hown _)]
      unfold hrTCorrection
      rw [if_neg hd1, if_neg hd2, if_neg hd1, if_neg hd2]
      field_simp
      ring
    · obtain rfl := Option.some.inj h
      rw [add_zero]

/-- component `d` of what leaves the domain per unit time through the boundary edges, with CEED -/
noncomputable def outflowRateTCeed (sv : TSolver) (P : FlowParams) (n d : ℕ) (bnd : List TBEdge)
    (u : ℕ → TCons) : ℝ :=
  (bnd.map fun e => e.len * (boundaryTFluxCeed sv P n e.bc (u e.cell) e.sn e.cn).getD (fun _ => 0) d).sum

/-- C104 (balance): whatever the backends disagree about, with CEED too water and every tracer are only moved around:
the area-weighted sum of the flux divergences is what crosses the boundary, for every state for which the
divergences are defined, with either solver, with and without hydrostatic reconstruction. -/
theorem C104_balance {hr : Bool} {sv : TSolver} {P : FlowParams} {n d : ℕ} {pm : PMesh} {bnd : List TBEdge}
    {u : ℕ → TCons} {f : ℕ → ℕ → ℝ} (hown : ∀ c, pm.owned c = true) (hinj : OwnedInj pm) (hv : EdgesValid pm)
    (hb : BndValid pm bnd) (hd : d = 0 ∨ 3 ≤ d) (h : ceedTDiv hr sv P n pm bnd u = some f) :
    ownedTotalT pm d f = -outflowRateTCeed sv P n d bnd u := by
  have hd1 : d ≠ 1 := by omega
  have hd2 : d ≠ 2 := by omega
  unfold ceedTDiv at h
  rw [Option.bind_eq_some_iff] at h
  obtain ⟨f1, h1, h2⟩ := h
  have e1 : ownedTotalT pm d f1 = 0 := by
    have h0 : ownedTotalT pm d (fun _ _ => 0) = 0 := by
      unfold ownedTotalT
      simp
    have hz : (pm.internal.map fun _ => (0 : ℝ)).sum = 0 := by simp
    cases hr with
    | false =>
      simp only [Bool.false_eq_true, if_false] at h1
      rw [foldlM_sum _ (ownedTotalT pm d) (fun _ => 0) pm.internal _ _
        (fun f e f' he hs => ceedTEdge_total hown hinj hv u f f' e he hs) h1, h0, hz, add_zero]
    | true =>
      simp only [if_true] at h1
      rw [foldlM_sum _ (ownedTotalT pm d) (fun _ => 0) pm.internal _ _
        (fun f e f' he hs => ceedTEdgeHR_total hown hinj hv u hd1 hd2 f f' e he hs) h1, h0, hz, add_zero]
  have e2 := foldlM_sum _ (ownedTotalT pm d)
    (fun e : TBEdge => -(e.len * (boundaryTFluxCeed sv P n e.bc (u e.cell) e.sn e.cn).getD (fun _ => 0) d)) bnd _ _
    (fun f e f' he hs => by
      unfold ceedTBEdge at hs
      rw [Option.map_eq_some_iff] at hs
      obtain ⟨F, hF, rfl⟩ := hs
      have al := hv.area _ (hb e he)
      rw [← addOwnedT_all hown, ownedTotalT_add hinj _ _ (hb e he), if_pos (hown _), hF]
      simp only [Option.getD_some]
      congr 1
      field_simp) h2
  rw [e2, e1, zero_add]
  unfold outflowRateTCeed
  have neg_sum : ∀ (g : TBEdge → ℝ) (l : List TBEdge), (l.map fun e => -g e).sum = -(l.map g).sum := by
    intro g l
    induction l with
    | nil => simp
    | cons a l ih => simp only [List.map_cons, List.sum_cons, ih]; ring
  exact neg_sum _ bnd

/-- a front: the backends disagree about the tracers that cross it, CEED conserves them nevertheless -/
example : ∃ f, ceedTDiv false .upwind exParams 1 (exSquares 0) [⟨1, 1, 0, 1, .reflecting⟩]
      (fun c => ⟨⟨c, 0, 0⟩, fun _ => 5 * c⟩) = some f ∧ ownedTotalT (exSquares 0) 3 f =
      -outflowRateTCeed .upwind exParams 1 3 [⟨1, 1, 0, 1, .reflecting⟩] (fun c => ⟨⟨c, 0, 0⟩, fun _ => 5 * c⟩) := by
  have hf : (ceedTDiv false .upwind exParams 1 (exSquares 0) [⟨1, 1, 0, 1, .reflecting⟩]
      (fun c => ⟨⟨c, 0, 0⟩, fun _ => 5 * c⟩)).isSome := by
    unfold ceedTDiv ceedTEdge ceedTBEdge boundaryTFluxCeed
    simp only [exSquares, Bool.false_eq_true, if_false, List.foldlM_cons, List.foldlM_nil]
    norm_num [tracerFluxCeed, tracerVelocitiesCeed, safeDiv, exParams, RoeDefined, reflectTCeed]
  obtain ⟨f, hf⟩ := Option.isSome_iff_exists.mp hf
  refine ⟨f, hf, C104_balance (fun _ => rfl) (exSquares_inj 0) (exSquares_valid 0) ?_ (Or.inr le_rfl) hf⟩
  intro e he
  simp only [List.mem_cons, List.not_mem_nil, or_false] at he
  subst he
  simp [exSquares]

theorem ceed_wall_zero {sv : TSolver} {P : FlowParams} {n : ℕ} {q : TCons} {sn cn : ℝ} {F : ℕ → ℝ} (hg : 0 < P.g)
    (ht : 0 < P.tinyH) (hn : cn ^ 2 + sn ^ 2 = 1) (h : boundaryTFluxCeed sv P n .reflecting q sn cn = some F) :
    F 0 = 0 ∧ ∀ j < n, F (3 + j) = 0 := by
  by_cases hw : q.q.h > P.tinyH
  · rw [C104_reflecting sv n q sn cn hg.le ht (ne_of_gt hw)] at h
    have hL : (tracerVelocities P.tinyH q).p.h = q.q.h := tracerVelocities_h _ _
    generalize hLg : tracerVelocities P.tinyH q = L at h hL
    have hR : (tracerRight P.tinyH .reflecting L sn cn).p.h = L.p.h := rfl
    unfold usedTracerFlux at h
    rw [if_pos (by rw [hR, hL]; exact fun a => absurd a.1 (not_lt.mpr hw.le))] at h
    obtain ⟨G', a, hG, h0, -⟩ := tracerFlux_some h
    obtain ⟨F', a', hF', hm, -⟩ := C38_reflecting L.p hg (by rw [hL]; linarith) hn
    have hG' : roeFlux P.g L.p (reflectRight L.p sn cn) sn cn = some (G', a) := hG
    rw [hF'] at hG'
    simp only [Option.some.injEq, Prod.mk.injEq] at hG'
    have hz : F 0 = 0 := by rw [h0, ← hG'.1, hm]
    refine ⟨hz, fun j hj => ?_⟩
    rw [C46_flux (C := L.c j) h hj rfl rfl, hz, mul_zero]
  · unfold boundaryTFluxCeed at h
    dsimp only at h
    rw [if_neg hw] at h
    obtain rfl := Option.some.inj h
    exact ⟨rfl, fun _ _ => rfl⟩

/-- C104 (closed basins): with CEED no water and no tracer crosses a wall, so in a basin surrounded by walls the
amounts of water and of each tracer are not changed by the fluxes, for every state for which they are defined. -/
theorem C104_closed {hr : Bool} {sv : TSolver} {P : FlowParams} {n : ℕ} {pm : PMesh} {bnd : List TBEdge}
    {u : ℕ → TCons} {f : ℕ → ℕ → ℝ} (hg : 0 < P.g) (ht : 0 < P.tinyH) (hown : ∀ c, pm.owned c = true)
    (hinj : OwnedInj pm) (hv : EdgesValid pm) (hb : BndValid pm bnd)
    (hwall : ∀ e ∈ bnd, e.bc = .reflecting ∧ e.cn ^ 2 + e.sn ^ 2 = 1)
    (h : ceedTDiv hr sv P n pm bnd u = some f) :
    ownedTotalT pm 0 f = 0 ∧ ∀ j < n, ownedTotalT pm (3 + j) f = 0 := by
  have key : ∀ d, (d = 0 ∨ ∃ j < n, d = 3 + j) → outflowRateTCeed sv P n d bnd u = 0 := by
    intro d hd
    unfold outflowRateTCeed
    apply List.sum_eq_zero
    intro x hx
    rw [List.mem_map] at hx
    obtain ⟨e, he, rfl⟩ := hx
    obtain ⟨hr', hn⟩ := hwall e he
    rw [hr']
    cases hF : boundaryTFluxCeed sv P n .reflecting (u e.cell) e.sn e.cn with
    | none => simp
    | some F =>
      obtain ⟨z0, zj⟩ := ceed_wall_zero hg ht hn hF
      rcases hd with rfl | ⟨j, hj, rfl⟩
      · simp [z0]
      · simp [zj j hj]
  refine ⟨?_, fun j hj => ?_⟩
  · rw [C104_balance hown hinj hv hb (Or.inl rfl) h, key 0 (Or.inl rfl), neg_zero]
  · rw [C104_balance hown hinj hv hb (Or.inr (by omega)) h, key (3 + j) (Or.inr ⟨j, hj, rfl⟩), neg_zero]

/-- C104 (uniform concentration), partial: with CEED a uniform concentration of tracer `j` stays uniform where the
states are those of `TSame`; at fronts it does not: `C104_uniform_violated`. -/
theorem C104_uniform_partial {hr : Bool} {sv : TSolver} {P : FlowParams} {n : ℕ} {pm : PMesh} {bnd : List TBEdge}
    {src : ℕ → ℕ → ℝ} {u : ℕ → TCons} {f : ℕ → ℕ → ℝ} {j : ℕ} {C : ℝ} (hg : 0 ≤ P.g) (ht : 0 < P.tinyH)
    (hown : ∀ c, pm.owned c = true) (hv : EdgesValid pm) (hbv : BndValid pm bnd) (hj : j < n)
    (hs : TSame hr sv P n pm bnd src u) (hu : ∀ c < pm.numCells, HasConcHR P.tinyH C j (u c))
    (hb : ∀ e ∈ bnd, BCHasConc P.tinyH C j e.bc) (h : ceedTDiv hr sv P n pm bnd u = some f) :
    ∀ i, f i (3 + j) = C * f i 0 := by
  rw [ceedTDiv_eq hg ht hown hv hbv hs] at h
  cases hr with
  | true => exact C83_uniform ht hj hv hbv hu hb h
  | false => exact C46_divergence ht hj hv hbv (fun c hc => (hu c hc).weak) hb h

example : ∃ f, ceedTDiv false .roe exParams 1 (exSquares 0) [⟨1, 1, 0, 1, .reflecting⟩]
      (fun c => ⟨⟨1 + c, 1, 0⟩, fun _ => 7 * (1 + c)⟩) = some f ∧ ∀ i, f i 3 = 7 * f i 0 := by
  have hs : TSame false .roe exParams 1 (exSquares 0) [⟨1, 1, 0, 1, .reflecting⟩] (fun _ _ => 0)
      (fun c => ⟨⟨1 + c, 1, 0⟩, fun _ => 7 * (1 + c)⟩) := by
    constructor
    · intro c hc
      have : c = 0 ∨ c = 1 := by simp [exSquares] at hc; omega
      rcases this with rfl | rfl <;> exact Or.inl (by norm_num [exParams])
    · intro _ e he r hr
      simp [exSquares] at he
      subst he
      simp at hr
      subst hr
      exact Or.inr (Or.inl (by norm_num [exParams]))
    · intro h; cases h
    · intro h; cases h
    · intro h; cases h
    · intro e he
      simp only [List.mem_cons, List.not_mem_nil, or_false] at he
      subst he
      trivial
  have hbv : BndValid (exSquares 0) [⟨1, 1, 0, 1, .reflecting⟩] := by
    intro e he
    simp only [List.mem_cons, List.not_mem_nil, or_false] at he
    subst he
    simp [exSquares]
  have ht : 0 < exParams.tinyH := by norm_num [exParams]
  have hg : 0 ≤ exParams.g := by norm_num [exParams]
  have hf : (ceedTDiv false .roe exParams 1 (exSquares 0) [⟨1, 1, 0, 1, .reflecting⟩]
      (fun c => ⟨⟨1 + c, 1, 0⟩, fun _ => 7 * (1 + c)⟩)).isSome := by
    rw [ceedTDiv_eq hg ht (fun _ => rfl) (exSquares_valid 0) hbv hs]
    refine C39_tracer_defined .roe 1 _ _ _ ht (fun c => by positivity) ?_
    intro e he
    simp only [List.mem_cons, List.not_mem_nil, or_false] at he
    subst he
    trivial
  obtain ⟨f, hf⟩ := Option.isSome_iff_exists.mp hf
  refine ⟨f, hf, C104_uniform_partial (j := 0) hg ht (fun _ => rfl) (exSquares_valid 0) hbv (by norm_num) hs ?_ ?_ hf⟩
  · intro c hc
    have : c = 0 ∨ c = 1 := by simp [exSquares] at hc; omega
    rcases this with rfl | rfl <;> exact ⟨Or.inr (by norm_num [exParams]), by norm_num⟩
  · intro e he
    simp only [List.mem_cons, List.not_mem_nil, or_false] at he
    subst he
    trivial

/-! ### Where the backends differ -/

/-- C104 is violated at fronts: with CEED, still water of depth 1 with concentration 5 on the right of a dry cell
flows into it but leaves all its tracer behind, so a uniform concentration does not stay uniform (the wet cell
becomes more concentrated, the newly wet cell gets clean water). -/
theorem C104_uniform_violated :
    ∃ f, ceedTDiv false .upwind ⟨2, 1e-7, 0, 0⟩ 1 (exSquares 0) [] (fun c => ⟨⟨c, 0, 0⟩, fun _ => 5 * c⟩) = some f ∧
      0 < f 0 0 ∧ f 0 3 = 0 ∧ f 1 0 < 0 ∧ f 1 3 = 0 := by
  obtain ⟨F, F', h1, h2, h3, h4, h5⟩ := C48_tracer_front_violated (g := 2) (tinyH := 1e-7) 1 0
    ⟨⟨0, 0, 0⟩, fun _ => 5 * 0⟩ ⟨⟨1, 0, 0⟩, fun _ => 5 * 1⟩ 0 1 (by norm_num) (by norm_num) (by norm_num)
    (le_refl 0) (by norm_num)
  have hneg : F' 0 < 0 := by
    have hvL : tracerVelocities 1e-7 ⟨⟨0, 0, 0⟩, fun _ => 5 * 0⟩ = ⟨⟨0, 0, 0⟩, fun _ => 0⟩ := by
      unfold tracerVelocities; rw [if_pos (by norm_num)]
    have hvR : tracerVelocities 1e-7 ⟨⟨1, 0, 0⟩, fun _ => 5 * 1⟩ = ⟨⟨1, 0, 0⟩, fun _ => 5⟩ := by
      unfold tracerVelocities; rw [if_neg (by norm_num)]; norm_num
    rw [hvL, hvR] at h2
    unfold usedTracerFlux tracerFlux at h2
    rw [if_pos (by norm_num), if_pos (by norm_num [RoeDefined])] at h2
    simp only [Option.some.injEq] at h2
    rw [← h2, upwindCombine_zero, roe_dry_left]
    have hc : roeC 2 0 1 = 1 := by unfold roeC; norm_num
    have hup : uperp (roeAvg 0 1 0 0) (roeAvg 0 1 0 0) 0 1 = 0 := by norm_num [uperp, roeAvg]
    have e1 : 1 ≤ (roeEig 2 ⟨0, 0, 0⟩ ⟨1, 0, 0⟩ 0 1).a1 := by
      refine le_trans ?_ (entropyFix_ge (abs_nonneg _))
      simp only [hup, hc]
      norm_num
    have e3 : 1 ≤ (roeEig 2 ⟨0, 0, 0⟩ ⟨1, 0, 0⟩ 0 1).a3 := by
      refine le_trans ?_ (entropyFix_ge (abs_nonneg _))
      simp only [hup, hc]
      norm_num
    linarith
  have hF : ceedTEdge .upwind ⟨2, 1e-7, 0, 0⟩ 1 (exSquares 0) (fun c => ⟨⟨c, 0, 0⟩, fun _ => 5 * c⟩) (fun _ _ => 0)
      ⟨0, some 1, 1, 0, 1⟩ = some (addAtT (addAtT (fun _ _ => 0) 0 F (-1 / 1)) 1 F (1 / 1)) := by
    unfold ceedTEdge
    dsimp only
    have h1' : tracerFluxCeed .upwind 2 1e-7 1 ⟨⟨((0 : ℕ) : ℝ), 0, 0⟩, fun _ => 5 * ((0 : ℕ) : ℝ)⟩
        ⟨⟨((1 : ℕ) : ℝ), 0, 0⟩, fun _ => 5 * ((1 : ℕ) : ℝ)⟩ 0 1 = some F := by
      rw [Nat.cast_zero, Nat.cast_one]
      exact h1
    rw [h1']
    rfl
  refine ⟨addAtT (addAtT (fun _ _ => 0) 0 F (-1 / 1)) 1 F (1 / 1), ?_, ?_, ?_, ?_, ?_⟩
  · unfold ceedTDiv
    simp only [Bool.false_eq_true, if_false]
    have : (exSquares 0).internal = [⟨0, some 1, 1, 0, 1⟩] := rfl
    rw [this, List.foldlM_cons, hF]
    rfl
  · simp only [addAtT, Nat.zero_ne_one, if_false, if_true]
    rw [h3]
    linarith
  · simp only [addAtT, Nat.zero_ne_one, if_false, if_true]
    rw [show (3 : ℕ) = 3 + 0 from rfl, h4]
    norm_num
  · simp only [addAtT, Nat.one_ne_zero, if_false, if_true]
    rw [h3]
    linarith
  · simp only [addAtT, Nat.one_ne_zero, if_false, if_true]
    rw [show (3 : ℕ) = 3 + 0 from rfl, h4]
    norm_num

/-- C104 is violated at boundaries with prescribed depth 0 (a free outfall): beside a wet cell the CEED kernel divides
the prescribed tracer by the prescribed depth, so the flux — and with it every component of the cell — is NaN; PETSc
computes a flux. -/
theorem C104_dry_boundary_violated {P : FlowParams} (sv : TSolver) (n : ℕ) (q s : TCons) (sn cn : ℝ)
    (ht : 0 < P.tinyH) (hq : q.q.h > P.tinyH) (hs : s.q.h = 0) :
    boundaryTFluxCeed sv P n (.dirichlet s) q sn cn = none ∧
    (usedTracerFlux sv P.g P.tinyH n (tracerVelocities P.tinyH q)
      (tracerRight P.tinyH (.dirichlet s) (tracerVelocities P.tinyH q) sn cn) sn cn).isSome :=
  C48_tracer_dry_right_violated sv n q s sn cn ht hq hs

example : boundaryTFluxCeed .roe exParams 1 (.dirichlet ⟨⟨0, 0, 0⟩, fun _ => 0⟩) ⟨⟨2, 1, 0⟩, fun _ => 1⟩ 0 1 = none :=
  (C104_dry_boundary_violated .roe 1 _ _ 0 1 (by norm_num [exParams]) (by norm_num [exParams]) rfl).1

/-- C104 is violated with salinity or heat: the PETSc backend evaluates the right-hand side only if neither is on
(its operators count sediment classes only and stop the program when the solution has more components), while the
CEED backend has a kernel for every number of tracers. -/
theorem C104_salinity_violated (c : CeedCfg) :
    c.petscEvaluates = true ↔ c.salinity = false ∧ c.heat = false := by
  unfold CeedCfg.petscEvaluates CeedCfg.comps CeedCfg.tracers CeedCfg.petscComps
  rw [beq_iff_eq]
  constructor
  · intro h
    constructor
    · by_contra hs
      rw [Bool.not_eq_false] at hs
      simp only [hs, if_true] at h
      split_ifs at h <;> omega
    · by_contra hs
      rw [Bool.not_eq_false] at hs
      simp only [hs, if_true] at h
      split_ifs at h <;> omega
  · rintro ⟨h1, h2⟩
    simp only [h1, h2, Bool.false_eq_true, if_false, add_zero]
    split_ifs <;> omega

example : (⟨2, true, false, .none, .semiImplicit, .roe, false⟩ : CeedCfg).petscEvaluates = false ∧
    (⟨2, false, false, .none, .semiImplicit, .roe, false⟩ : CeedCfg).petscEvaluates = true := by decide

end RDy
