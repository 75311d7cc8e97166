import Verif.Props.PassiveTracers
import Verif.Props.BackendsRhs

/-!
C83: transport of tracers with hydrostatic reconstruction.
-/

namespace RDy

open Finset

/-! ### Reconstructed states -/

theorem hrT_depth_le (P : FlowParams) {z zmax : ℝ} (hz : z ≤ zmax) {s : TCons} (hs : 0 ≤ s.q.h) :
    (hrTState P z zmax s).p.h ≤ s.q.h ∧ 0 ≤ (hrTState P z zmax s).p.h := by
  refine ⟨?_, le_max_left _ _⟩
  change max 0 (s.q.h + z - zmax) ≤ s.q.h
  exact max_le hs (by linarith)

/-- flux of a tracer of concentration `C`; the concentration attributed to a side without water is
irrelevant -/
theorem conc_flux_any {sv : TSolver} {g : ℝ} {n : ℕ} {L R : TPrim} {sn cn : ℝ} {F : ℕ → ℝ} {j : ℕ} {C : ℝ}
    (h : tracerFlux sv g n L R sn cn = some F) (hj : j < n) (hL : 0 < L.p.h → L.c j = C)
    (hR : 0 < R.p.h → R.c j = C) : F (3 + j) = C * F 0 := by
  have hd : RoeDefined L.p.h R.p.h := by
    by_contra hd
    unfold tracerFlux at h
    rw [if_neg hd] at h
    exact absurd h (by simp)
  rcases lt_or_eq_of_le hd.1 with l1 | l1
  · rcases lt_or_eq_of_le hd.2.1 with r1 | r1
    · exact C46_flux h hj (hL l1) (hR r1)
    · -- right dry
      have hs : √L.p.h ≠ 0 := ne_of_gt (Real.sqrt_pos.mpr l1)
      have l2 := hL l1
      unfold tracerFlux at h
      rw [if_pos hd] at h
      cases sv with
      | roe =>
        simp only [Option.some.injEq] at h
        have hchat : tracerChat L R j = C := by
          unfold tracerChat roeAvg
          rw [← r1, l2, Real.sqrt_zero]
          field_simp
          ring
        rw [← h, tracerCombine_tracer g L R _ sn cn hj, (tracerCombine_flow g n L R _ sn cn).1, roe_mass,
          hchat, ← r1, l2]
        ring
      | upwind =>
        simp only [Option.some.injEq] at h
        have hm := roe_mass_dry_right g l1 r1.symm sn cn
        rw [← h, upwindCombine_tracer, l2, upwindCombine_zero, if_pos hm]
        ring
  · have r1 : 0 < R.p.h := by
      have := hd.2.2
      rw [← l1] at this
      linarith
    have hs : √R.p.h ≠ 0 := ne_of_gt (Real.sqrt_pos.mpr r1)
    have r2 := hR r1
    unfold tracerFlux at h
    rw [if_pos hd] at h
    cases sv with
    | roe =>
      simp only [Option.some.injEq] at h
      have hchat : tracerChat L R j = C := by
        unfold tracerChat roeAvg
        rw [← l1, r2, Real.sqrt_zero]
        field_simp
        ring
      rw [← h, tracerCombine_tracer g L R _ sn cn hj, (tracerCombine_flow g n L R _ sn cn).1, roe_mass,
        hchat, ← l1, r2]
      ring
    | upwind =>
      simp only [Option.some.injEq] at h
      have hm := roe_mass_dry_left g r1 l1.symm sn cn
      rw [← h, upwindCombine_tracer, r2, upwindCombine_zero]
      rcases lt_or_eq_of_le hm with h1 | h1
      · rw [if_neg (by linarith)]; ring
      · rw [h1]; ring

/-- The concentration of a cell, as a user would define it: tracer per water, in every cell that is
wet. Films of at most `tiny_h` are excluded. -/
def HasConcHR (tinyH C : ℝ) (j : ℕ) (s : TCons) : Prop :=
  (s.q.h = 0 ∨ tinyH < s.q.h) ∧ s.hc j = C * s.q.h

theorem HasConcHR.weak {tinyH C : ℝ} {j : ℕ} {s : TCons} (h : HasConcHR tinyH C j s) :
    HasConc tinyH C j s :=
  ⟨h.1.imp id le_of_lt, h.2⟩

theorem hrT_conc {P : FlowParams} {C z zmax : ℝ} {j : ℕ} {s : TCons} (ht : 0 < P.tinyH) (hz : z ≤ zmax)
    (h : HasConcHR P.tinyH C j s) : 0 < (hrTState P z zmax s).p.h → (hrTState P z zmax s).c j = C := by
  intro hp
  have hs : 0 ≤ s.q.h := by rcases h.1 with h | h <;> linarith
  have h1 := (hrT_depth_le P hz hs).1
  have hw : P.tinyH < s.q.h := by
    rcases h.1 with h | h
    · linarith
    · exact h
  have : s.q.h ≠ 0 := by linarith
  change (if s.q.h > P.tinyH then s.hc j / s.q.h else 0) = C
  rw [if_pos hw, h.2]
  field_simp

theorem corr_flow {P : FlowParams} {h hrec sn cn : ℝ} :
    hrTCorrection P h hrec sn cn 0 = 0 ∧ ∀ j, hrTCorrection P h hrec sn cn (3 + j) = 0 := by
  refine ⟨rfl, fun j => ?_⟩
  unfold hrTCorrection
  rw [if_neg (by omega), if_neg (by omega)]

/-! ### C83 -/

/-- C83. The flux divergence with tracers and hydrostatic reconstruction is defined whenever no depth is
negative. -/
theorem C83_defined (sv : TSolver) {P : FlowParams} (n : ℕ) (pm : PMesh) (bnd : List TBEdge)
    (u : ℕ → TCons) (ht : 0 < P.tinyH) (hu : ∀ c, 0 ≤ (u c).q.h) (hb : ∀ e ∈ bnd, BCNonneg e.bc) :
    (tracerDiv true sv P n pm bnd u).isSome := by
  unfold tracerDiv
  rw [if_pos rfl]
  unfold tracerDivergenceHR
  have h1 : (pm.internal.foldlM (hrTEdge sv P n pm u) fun _ _ => 0).isSome := by
    apply foldlM_isSome
    intro f e _
    unfold hrTEdge
    cases e.right with
    | none => rfl
    | some r =>
      simp only
      split
      · rfl
      · apply isSome_map'
        unfold hrTFlux
        split
        · rename_i hw
          have hL : 0 ≤ (hrTState P (pm.zc e.left) (max (pm.zc e.left) (pm.zc r)) (u e.left)).p.h :=
            le_max_left _ _
          have hR : 0 ≤ (hrTState P (pm.zc r) (max (pm.zc e.left) (pm.zc r)) (u r)).p.h :=
            le_max_left _ _
          have hd : RoeDefined (hrTState P (pm.zc e.left) (max (pm.zc e.left) (pm.zc r)) (u e.left)).p.h
              (hrTState P (pm.zc r) (max (pm.zc e.left) (pm.zc r)) (u r)).p.h := by
            refine ⟨hL, hR, ?_⟩
            rcases hw with h | h <;> linarith
          unfold tracerFlux
          rw [if_pos hd]
          cases sv <;> rfl
        · rfl
  obtain ⟨f, hf⟩ := Option.isSome_iff_exists.mp h1
  rw [hf]
  change (bnd.foldlM (tracerBEdge sv P n pm u) f).isSome
  apply foldlM_isSome
  intro f e he
  unfold tracerBEdge
  by_cases ho : pm.owned e.cell = true
  · rw [if_pos ho]
    apply isSome_map'
    apply usedTracerFlux_isSome _ _ _ _ _ _ _ ht
    · rw [tracerVelocities_h]; exact hu _
    · have hbe := hb e he
      cases hbc : e.bc with
      | dirichlet s =>
        rw [hbc] at hbe
        change 0 ≤ (tracerVelocities P.tinyH s).p.h
        rw [tracerVelocities_h]; exact hbe
      | reflecting =>
        change 0 ≤ (tracerVelocities P.tinyH (u e.cell)).p.h
        rw [tracerVelocities_h]; exact hu _
  · rw [if_neg ho]; rfl

example : (tracerDiv true .roe exParams 3 (exSquares 2)
    [⟨0, 1, 0, -1, .dirichlet ⟨⟨2, 1, 0⟩, fun _ => 1⟩⟩, ⟨1, 1, 0, 1, .reflecting⟩]
    (fun c => ⟨⟨c, 1, 1⟩, fun j => j⟩)).isSome := by
  apply C83_defined _ _ _ _ _ (by norm_num [exParams])
  · intro c; exact Nat.cast_nonneg c
  · intro e he
    simp only [List.mem_cons, List.not_mem_nil, or_false] at he
    rcases he with h | h <;> subst h
    · change (0 : ℝ) ≤ 2; norm_num
    · trivial

/-- C83. A uniform concentration stays uniform over any bed: on every mesh, if tracer `j` has concentration
`C` in all wet cells and in the water entering at the boundaries, then in every cell the flux divergence of the
tracer is `C` times that of water, for both solvers and any number of tracers. -/
theorem C83_uniform {sv : TSolver} {P : FlowParams} {n : ℕ} {pm : PMesh} {bnd : List TBEdge}
    {u : ℕ → TCons} {f : ℕ → ℕ → ℝ} {j : ℕ} {C : ℝ} (ht : 0 < P.tinyH) (hj : j < n)
    (hv : EdgesValid pm) (hbv : ∀ e ∈ bnd, e.cell < pm.numCells)
    (hu : ∀ c < pm.numCells, HasConcHR P.tinyH C j (u c)) (hb : ∀ e ∈ bnd, BCHasConc P.tinyH C j e.bc)
    (h : tracerDiv true sv P n pm bnd u = some f) : ∀ i, f i (3 + j) = C * f i 0 := by
  unfold tracerDiv at h
  rw [if_pos rfl] at h
  unfold tracerDivergenceHR at h
  rw [Option.bind_eq_some_iff] at h
  obtain ⟨f1, h1, h2⟩ := h
  have i1 : ∀ i, f1 i (3 + j) = C * f1 i 0 := by
    refine foldlM_inv _ (fun f : ℕ → ℕ → ℝ => ∀ i, f i (3 + j) = C * f i 0) pm.internal _ _ ?_ (by simp) h1
    intro f e f' he hf hs
    unfold hrTEdge at hs
    cases hr : e.right with
    | none =>
      rw [hr] at hs
      simp only [Option.some.injEq] at hs
      rw [← hs]; exact hf
    | some r =>
      rw [hr] at hs
      simp only at hs
      by_cases hd : (u r).q.h < P.tinyH ∧ (u e.left).q.h < P.tinyH
      · rw [if_pos hd] at hs
        simp only [Option.some.injEq] at hs
        rw [← hs]; exact hf
      · rw [if_neg hd] at hs
        simp only [Option.map_eq_some_iff] at hs
        obtain ⟨F, hF, hs⟩ := hs
        have hc : F (3 + j) = C * F 0 := by
          unfold hrTFlux at hF
          split at hF
          · exact conc_flux_any hF hj (hrT_conc ht (le_max_left _ _) (hu _ (hv.left e he)))
              (hrT_conc ht (le_max_right _ _) (hu _ (hv.right e he r hr)))
          · simp only [Option.some.injEq] at hF
            rw [← hF]; ring
        have hcorr : ∀ h hrec sn cn : ℝ,
            hrTCorrection P h hrec sn cn (3 + j) = C * hrTCorrection P h hrec sn cn 0 := by
          intro h hrec sn cn
          rw [corr_flow.1, corr_flow.2, mul_zero]
        rw [← hs]
        exact addOwnedT_conc (hcorr _ _ _ _) (addOwnedT_conc (hcorr _ _ _ _)
          (addOwnedT_conc hc (addOwnedT_conc hc hf)))
  refine foldlM_inv _ (fun f : ℕ → ℕ → ℝ => ∀ i, f i (3 + j) = C * f i 0) bnd _ _ ?_ i1 h2
  intro f e f' he hf hs
  unfold tracerBEdge at hs
  by_cases ho : pm.owned e.cell = true
  · rw [if_pos ho] at hs
    simp only [Option.map_eq_some_iff] at hs
    obtain ⟨F, hF, hs⟩ := hs
    have hc : F (3 + j) = C * F 0 := by
      have hbe := hb e he
      cases hbc : e.bc with
      | dirichlet s =>
        rw [hbc] at hbe hF
        exact conc_used ht hj (hu _ (hbv e he)).weak hbe hF
      | reflecting =>
        rw [hbc] at hF
        exact conc_used_reflecting ht hj (hu _ (hbv e he)).weak hF
    rw [← hs]
    exact addOwnedT_conc hc hf
  · rw [if_neg ho] at hs
    simp only [Option.some.injEq] at hs
    rw [← hs]; exact hf

/-- water at both sides of a step in the bed, higher than the step on the left only -/
example (f : ℕ → ℕ → ℝ)
    (h : tracerDiv true .roe exParams 1 (exSquares (-3)) []
      (fun c => if c = 0 then ⟨⟨1, 2, 0⟩, fun _ => 0.5⟩ else ⟨⟨2, 0, 0⟩, fun _ => 1⟩) = some f) :
    f 0 3 = 0.5 * f 0 0 := by
  refine C83_uniform (j := 0) (C := 0.5) (by norm_num [exParams])
    (by norm_num) (exSquares_valid _) (by simp) ?_ (by simp) h 0
  intro c _
  by_cases hc : c = 0
  · simp only [if_pos hc]
    exact ⟨Or.inr (by norm_num [exParams]), by norm_num⟩
  · simp only [if_neg hc]
    exact ⟨Or.inr (by norm_num [exParams]), by norm_num⟩

/-- One explicit Euler step of transport alone (no erosion, deposition or external sources), with
hydrostatic reconstruction, on a distributed mesh. -/
def TransportStepHR {np : ℕ} (sv : TSolver) (P : FlowParams) (n : ℕ) (pm : Fin np → PMesh)
    (bnd : Fin np → List TBEdge) (gid : Fin np → ℕ → ℕ) (dt : ℝ) (U U' : ℕ → TCons) : Prop :=
  ∀ p, ∃ f, tracerDiv true sv P n (pm p) (bnd p) (fun c => U (gid p c)) = some f ∧
    ∀ c < (pm p).numCells, (pm p).owned c = true →
      (U' (gid p c)).q.h = (U (gid p c)).q.h + dt * f ((pm p).l2o c) 0 ∧
      ∀ j < n, (U' (gid p c)).hc j = (U (gid p c)).hc j + dt * f ((pm p).l2o c) (3 + j)

/-- C83. A uniform concentration stays uniform through any number of transport steps, on any distributed mesh
over any bed, as long as no films of at most `tiny_h` occur. -/
theorem C83_stays {np : ℕ} {sv : TSolver} {P : FlowParams} {n : ℕ} {pm : Fin np → PMesh}
    {bnd : Fin np → List TBEdge} {gid : Fin np → ℕ → ℕ} {j : ℕ} {C : ℝ} (ht : 0 < P.tinyH) (hj : j < n)
    (hv : ∀ p, EdgesValid (pm p)) (hbv : ∀ p, ∀ e ∈ bnd p, e.cell < (pm p).numCells)
    (hown : ∀ p, ∀ c < (pm p).numCells, ∃ q, ∃ c' < (pm q).numCells,
      (pm q).owned c' = true ∧ gid q c' = gid p c)
    (hb : ∀ p, ∀ e ∈ bnd p, BCHasConc P.tinyH C j e.bc) (dt : ℕ → ℝ) (U : ℕ → ℕ → TCons) (N : ℕ)
    (hfilm : ∀ i < N, ∀ p, ∀ c < (pm p).numCells, (U i (gid p c)).q.h = 0 ∨ P.tinyH < (U i (gid p c)).q.h)
    (h0 : ∀ p, ∀ c < (pm p).numCells, (U 0 (gid p c)).hc j = C * (U 0 (gid p c)).q.h)
    (h : ∀ i < N, TransportStepHR sv P n pm bnd gid (dt i) (U i) (U (i + 1))) :
    ∀ p, ∀ c < (pm p).numCells, (U N (gid p c)).hc j = C * (U N (gid p c)).q.h := by
  induction N with
  | zero => exact h0
  | succ N ih =>
    have ih' := ih (fun i hi => hfilm i (Nat.lt_succ_of_lt hi)) fun i hi => h i (Nat.lt_succ_of_lt hi)
    intro p c hc
    obtain ⟨q, c', hc', ho', hgid⟩ := hown p c hc
    rw [← hgid]
    obtain ⟨f, h1, h2⟩ := h N (Nat.lt_succ_self N) q
    have hdiv := C83_uniform (j := j) (C := C) ht hj (hv q) (hbv q)
      (fun c hc => ⟨hfilm N (Nat.lt_succ_self N) q c hc, ih' q c hc⟩) (hb q) h1
    obtain ⟨a1, a2⟩ := h2 c' hc' ho'
    rw [a1, a2 j hj, hdiv, ih' q c' hc']
    ring

/-! ### Conservation -/

/-- component `d` of the flux through an internal edge between cells with beds `zL`, `zR` -/
noncomputable def edgeFluxTHR (sv : TSolver) (P : FlowParams) (n d : ℕ) (zL zR : ℝ) (sL sR : TCons)
    (sn cn : ℝ) : ℝ :=
  if sR.q.h < P.tinyH ∧ sL.q.h < P.tinyH then 0
  else (hrTFlux sv P n (hrTState P zL (max zL zR) sL) (hrTState P zR (max zL zR) sR) sn cn).getD
    (fun _ => 0) d

theorem edgeFluxTHR_swap (sv : TSolver) (P : FlowParams) {n d : ℕ} (hd : d < 3 + n) (zL zR : ℝ)
    (sL sR : TCons) (sn cn : ℝ) :
    edgeFluxTHR sv P n d zR zL sR sL (-sn) (-cn) = -edgeFluxTHR sv P n d zL zR sL sR sn cn := by
  unfold edgeFluxTHR
  by_cases hw : sR.q.h < P.tinyH ∧ sL.q.h < P.tinyH
  · rw [if_pos hw, if_pos hw.symm, neg_zero]
  · rw [if_neg hw, if_neg fun h => hw h.symm, max_comm zR zL]
    generalize hrTState P zL (max zL zR) sL = L
    generalize hrTState P zR (max zL zR) sR = R
    unfold hrTFlux
    by_cases hr : L.p.h > P.tinyH ∨ R.p.h > P.tinyH
    · rw [if_pos hr, if_pos hr.symm]
      cases hF : tracerFlux sv P.g n L R sn cn with
      | none =>
        have : tracerFlux sv P.g n R L (-sn) (-cn) = none := by
          unfold tracerFlux at hF ⊢
          by_cases hr : RoeDefined L.p.h R.p.h
          · rw [if_pos hr] at hF
            cases sv <;> simp at hF
          · rw [if_neg (fun h => hr (roeDefined_comm.mp h))]
        rw [this]; simp
      | some F =>
        obtain ⟨F', h1, h2⟩ := C47_antisymmetric hF
        rw [h1]
        exact h2 d hd
    · rw [if_neg hr, if_neg fun h => hr h.symm]
      simp

/-- amount by which an internal edge changes the area-weighted sum over owned cells -/
noncomputable def edgeChangeTHR (sv : TSolver) (P : FlowParams) (n d : ℕ) (pm : PMesh) (u : ℕ → TCons)
    (e : IEdge) : ℝ :=
  match e.right with
  | none => 0
  | some r =>
    (if pm.owned e.left then
      -e.len * edgeFluxTHR sv P n d (pm.zc e.left) (pm.zc r) (u e.left) (u r) e.sn e.cn else 0) +
      if pm.owned r then
        e.len * edgeFluxTHR sv P n d (pm.zc e.left) (pm.zc r) (u e.left) (u r) e.sn e.cn else 0

/-- components without pressure: water and tracers -/
def Scalar (d : ℕ) : Prop := d ≠ 1 ∧ d ≠ 2

theorem corr_scalar {P : FlowParams} {h hrec sn cn : ℝ} {d : ℕ} (hd : Scalar d) :
    hrTCorrection P h hrec sn cn d = 0 := by
  unfold hrTCorrection
  rw [if_neg hd.1, if_neg hd.2]

theorem hrTEdge_total {sv : TSolver} {P : FlowParams} {n d : ℕ} (hsc : Scalar d) {pm : PMesh}
    (hinj : OwnedInj pm) (hv : EdgesValid pm) (u : ℕ → TCons) (f f' : ℕ → ℕ → ℝ) (e : IEdge)
    (he : e ∈ pm.internal) (h : hrTEdge sv P n pm u f e = some f') :
    ownedTotalT pm d f' = ownedTotalT pm d f + edgeChangeTHR sv P n d pm u e := by
  unfold hrTEdge at h
  unfold edgeChangeTHR
  cases hr : e.right with
  | none =>
    rw [hr] at h
    simp only [Option.some.injEq] at h
    subst h
    simp
  | some r =>
    rw [hr] at h
    simp only at h ⊢
    by_cases hw : (u r).q.h < P.tinyH ∧ (u e.left).q.h < P.tinyH
    · rw [if_pos hw] at h
      simp only [Option.some.injEq] at h
      have hE : edgeFluxTHR sv P n d (pm.zc e.left) (pm.zc r) (u e.left) (u r) e.sn e.cn = 0 := by
        unfold edgeFluxTHR
        rw [if_pos hw]
      rw [← h, hE]
      simp
    · rw [if_neg hw] at h
      simp only [Option.map_eq_some_iff] at h
      obtain ⟨F, hF, hf⟩ := h
      have hl := hv.left e he
      have hrr := hv.right e he r hr
      have hal := hv.area _ hl
      have har := hv.area _ hrr
      have hE : edgeFluxTHR sv P n d (pm.zc e.left) (pm.zc r) (u e.left) (u r) e.sn e.cn = F d := by
        unfold edgeFluxTHR
        rw [if_neg hw, hF]
        rfl
      rw [← hf, ownedTotalT_add hinj _ _ hrr, ownedTotalT_add hinj _ _ hl, ownedTotalT_add hinj _ _ hrr,
        ownedTotalT_add hinj _ _ hl]
      simp only [hE, corr_scalar hsc, zero_mul, mul_zero, ite_self, add_zero]
      rw [add_assoc]
      congr 2
      · split
        · field_simp
        · rfl
      · split
        · field_simp
        · rfl

theorem tracerHR_total {sv : TSolver} {P : FlowParams} {n d : ℕ} (hsc : Scalar d) {pm : PMesh}
    (hinj : OwnedInj pm) (hv : EdgesValid pm) {bnd : List TBEdge} (hb : BndValid pm bnd) {u : ℕ → TCons}
    {f : ℕ → ℕ → ℝ} (h : tracerDiv true sv P n pm bnd u = some f) :
    ownedTotalT pm d f = (pm.internal.map (edgeChangeTHR sv P n d pm u)).sum -
      outflowRateT sv P n d pm bnd u := by
  unfold tracerDiv at h
  rw [if_pos rfl] at h
  unfold tracerDivergenceHR at h
  rw [Option.bind_eq_some_iff] at h
  obtain ⟨f1, h1, h2⟩ := h
  have e1 := foldlM_sum _ (ownedTotalT pm d) _ pm.internal _ _
    (fun f e f' he hs => hrTEdge_total hsc hinj hv u f f' e he hs) h1
  have e2 := foldlM_sum _ (ownedTotalT pm d) _ bnd _ _
    (fun f e f' he hs => tracerBEdge_total hinj hv u f f' e (hb e he) hs) h2
  rw [e2, e1]
  have h0 : ownedTotalT pm d (fun _ _ => 0) = 0 := by
    unfold ownedTotalT
    simp
  rw [h0, zero_add, sub_eq_add_neg]
  congr 1
  unfold outflowRateT
  have neg_sum : ∀ l : List TBEdge, (l.map fun e => -(if pm.owned e.cell then e.len * bndFluxT sv P n d u e
      else 0)).sum = -(l.map fun e => if pm.owned e.cell then e.len * bndFluxT sv P n d u e else 0).sum := by
    intro l
    induction l with
    | nil => simp
    | cons a l ih => simp only [List.map_cons, List.sum_cons, ih]; ring
  exact neg_sum bnd

theorem tracerHR_partition_zero {np : ℕ} {sv : TSolver} {P : FlowParams} {n d : ℕ} (hd : d < 3 + n)
    {pm : Fin np → PMesh} {gid : Fin np → ℕ → ℕ} {Z : ℕ → ℝ} (hz : ∀ p c, (pm p).zc c = Z (gid p c))
    {owner : ℕ → Fin np} {G : List GEdge} {seen : Fin np → GEdge → Bool}
    (hp : Partitioned np pm gid owner G seen) (U : ℕ → TCons) :
    ∑ p, ((pm p).internal.map (edgeChangeTHR sv P n d (pm p) fun c => U (gid p c))).sum = 0 := by
  apply partition_sum_zero hp
    (fun ge => edgeFluxTHR sv P n d (Z ge.c1) (Z ge.c2) (U ge.c1) (U ge.c2) ge.sn ge.cn)
  · intro p e he
    unfold edgeChangeTHR
    rw [he]
  · intro p ge _ le hle hs
    obtain ⟨r, hr, hlen, hcase⟩ := hs
    have hl := (hp.valid p).left le hle
    have hrr := (hp.valid p).right le hle r hr
    have hol := hp.owned p le.left hl
    have hor := hp.owned p r hrr
    unfold edgeChangeTHR
    rw [hr]
    simp only [hz]
    rcases hcase with ⟨h1, h2, h3, h4⟩ | ⟨h1, h2, h3, h4⟩
    · rw [h1] at hol ⊢
      rw [h2] at hor ⊢
      rw [h3, h4, hlen]
      simp only [hol, hor]
    · rw [h1] at hol ⊢
      rw [h2] at hor ⊢
      rw [h3, h4, hlen, edgeFluxTHR_swap sv P hd]
      simp only [hol, hor]
      rw [add_comm]
      congr 1
      · split <;> ring
      · split <;> ring

/-- C83. Balance of tracer mass with hydrostatic reconstruction: after any number of transport steps, on any
distributed mesh over any bed, the mass of each tracer has changed exactly by what crossed the domain
boundary. -/
theorem C83_balance {np : ℕ} {sv : TSolver} {P : FlowParams} {n : ℕ} {pm : Fin np → PMesh}
    {bnd : Fin np → List TBEdge} {gid : Fin np → ℕ → ℕ} {Z : ℕ → ℝ} {owner : ℕ → Fin np} {G : List GEdge}
    {seen : Fin np → GEdge → Bool} (hp : Partitioned np pm gid owner G seen)
    (hz : ∀ p c, (pm p).zc c = Z (gid p c))
    (hb : ∀ p, BndValid (pm p) (bnd p)) {j : ℕ} (hj : j < n) (dt : ℕ → ℝ) (U : ℕ → ℕ → TCons) (N : ℕ)
    (h : ∀ i < N, TransportStepHR sv P n pm bnd gid (dt i) (U i) (U (i + 1))) :
    globalTracer pm gid j (U N) = globalTracer pm gid j (U 0) -
      ∑ i ∈ range N, dt i * ∑ p, outflowRateT sv P n (3 + j) (pm p) (bnd p) fun c => U i (gid p c) := by
  induction N with
  | zero => simp
  | succ N ih =>
    have ih' := ih fun i hi => h i (Nat.lt_succ_of_lt hi)
    have hN := h N (Nat.lt_succ_self N)
    choose f hf hU using hN
    have hsc : Scalar (3 + j) := ⟨by omega, by omega⟩
    have hzero := tracerHR_partition_zero (sv := sv) (P := P) (n := n) (d := 3 + j) (by omega) hz hp (U N)
    have ht : ∀ p, ownedTotalT (pm p) (3 + j) (f p) =
        ((pm p).internal.map (edgeChangeTHR sv P n (3 + j) (pm p) fun c => U N (gid p c))).sum -
          outflowRateT sv P n (3 + j) (pm p) (bnd p) fun c => U N (gid p c) := fun p =>
      tracerHR_total hsc (hp.inj p) (hp.valid p) (hb p) (hf p)
    have hstep : globalTracer pm gid j (U (N + 1)) = globalTracer pm gid j (U N) +
        dt N * ∑ p, ownedTotalT (pm p) (3 + j) (f p) := by
      unfold globalTracer ownedTotalT
      rw [mul_sum, ← sum_add_distrib]
      apply sum_congr rfl
      intro p _
      rw [mul_sum, ← sum_add_distrib]
      apply sum_congr rfl
      intro c hc
      by_cases ho : (pm p).owned c = true
      · simp only [ho, if_true]
        rw [(hU p c (mem_range.mp hc) ho).2 j hj]
        ring
      · simp [ho]
    rw [hstep, ih', sum_congr rfl fun p _ => ht p, sum_sub_distrib, hzero, sum_range_succ]
    ring

/-- a step exists in the two-process example -/
theorem exTransportHR (sv : TSolver) (n : ℕ) (dt : ℝ) (U : ℕ → TCons) (hU : ∀ c, 0 ≤ (U c).q.h) :
    ∃ U', TransportStepHR sv exParams n exMesh
      (fun p => [⟨0, 1, 0, if p = 0 then -1 else 1, .reflecting⟩]) exGid dt U U' := by
  have hdef : ∀ p : Fin 2, ∃ f, tracerDiv true sv exParams n (exMesh p)
      [⟨0, 1, 0, if p = 0 then -1 else 1, .reflecting⟩] (fun c => U (exGid p c)) = some f := by
    intro p
    apply Option.isSome_iff_exists.mp
    apply C83_defined _ _ _ _ _ (by norm_num [exParams])
    · intro c; exact hU _
    · intro e he
      rw [List.mem_singleton] at he
      subst he
      trivial
  choose f hf using hdef
  refine ⟨fun c => if c = 0 then ⟨⟨(U 0).q.h + dt * f 0 0 0, 0, 0⟩, fun j => (U 0).hc j + dt * f 0 0 (3 + j)⟩
    else ⟨⟨(U 1).q.h + dt * f 1 0 0, 0, 0⟩, fun j => (U 1).hc j + dt * f 1 0 (3 + j)⟩, ?_⟩
  intro p
  refine ⟨f p, hf p, ?_⟩
  intro c _ ho
  simp only [exMesh, beq_iff_eq] at ho
  subst ho
  fin_cases p
  · exact ⟨rfl, fun j _ => rfl⟩
  · exact ⟨rfl, fun j _ => rfl⟩

example (U : ℕ → TCons) (hU : ∀ c, 0 ≤ (U c).q.h) : ∃ U', TransportStepHR .roe exParams 2 exMesh
      (fun p => [⟨0, 1, 0, if p = 0 then -1 else 1, .reflecting⟩]) exGid 0.5 U U' ∧
    globalTracer exMesh exGid 1 U' = globalTracer exMesh exGid 1 U - 0.5 * ∑ p,
      outflowRateT .roe exParams 2 4 (exMesh p) [⟨0, 1, 0, if p = 0 then -1 else 1, .reflecting⟩]
        fun c => U (exGid p c) := by
  obtain ⟨U', h⟩ := exTransportHR .roe 2 0.5 U hU
  refine ⟨U', h, ?_⟩
  have := C83_balance (sv := .roe) (P := exParams) (n := 2) (Z := fun _ => 0)
    (bnd := fun p => [⟨0, 1, 0, if p = 0 then -1 else 1, .reflecting⟩]) (j := 1) exPartitioned
    (fun p c => rfl) (by
      intro p e he
      rw [List.mem_singleton] at he
      subst he
      norm_num [exMesh]) (by norm_num) (fun _ => 0.5) (fun i => if i = 0 then U else U') 1 (by
      intro i hi
      have : i = 0 := by omega
      subst this
      exact h)
  simpa using this

/-- water of depths 1 and 2 with concentration 0.3, on two processes -/
example (h : ℕ → ℝ) (hh : h = fun c => if c = 0 then 1 else 2) :
    ∃ U', TransportStepHR .roe exParams 2 exMesh
      (fun p => [⟨0, 1, 0, if p = 0 then -1 else 1, .reflecting⟩]) exGid 0.5
      (fun c => ⟨⟨h c, 1, 0⟩, fun _ => 0.3 * h c⟩) U' ∧ (U' 1).hc 1 = 0.3 * (U' 1).q.h := by
  have h1 : ∀ c, 1 ≤ h c := by
    intro c
    rw [hh]
    simp only
    split <;> norm_num
  obtain ⟨U', hs⟩ := exTransportHR .roe 2 0.5 (fun c => ⟨⟨h c, 1, 0⟩, fun _ => 0.3 * h c⟩)
    (fun c => by have := h1 c; simp only; linarith)
  refine ⟨U', hs, ?_⟩
  refine C83_stays (sv := .roe) (P := exParams) (n := 2) (pm := exMesh) (gid := exGid)
    (bnd := fun p => [⟨0, 1, 0, if p = 0 then -1 else 1, .reflecting⟩]) (j := 1) (C := 0.3)
    (by norm_num [exParams]) (by norm_num) exPartitioned.valid exMesh_bnd exMesh_own ?_ (fun _ => 0.5)
    (fun i => if i = 0 then (fun c => ⟨⟨h c, 1, 0⟩, fun _ => 0.3 * h c⟩) else U') 1 ?_ ?_ ?_ 1 0
    (by norm_num [exMesh])
  · intro p e he
    rw [List.mem_singleton] at he
    subst he
    trivial
  · intro i hi p c _
    have : i = 0 := by omega
    subst this
    right
    have := h1 (exGid p c)
    simp only [if_true, exParams]
    norm_num
    linarith
  · intro p c _
    simp
  · intro i hi
    have : i = 0 := by omega
    subst this
    exact hs

/-! ### Bounds -/

/-- Water leaving cell `c` per unit time and area, through internal and boundary edges. -/
noncomputable def outRateHR (P : FlowParams) (pm : PMesh) (bnd : List TBEdge) (u : ℕ → TCons) (c : ℕ) : ℝ :=
  (pm.internal.map fun e =>
    match e.right with
    | none => 0
    | some r =>
      (if e.left = c then e.len / pm.area c *
        max 0 (edgeFluxTHR .upwind P 0 0 (pm.zc e.left) (pm.zc r) (u e.left) (u r) e.sn e.cn) else 0) +
      if r = c then e.len / pm.area c *
        max 0 (-edgeFluxTHR .upwind P 0 0 (pm.zc e.left) (pm.zc r) (u e.left) (u r) e.sn e.cn) else 0).sum +
  (bnd.map fun e =>
    if e.cell = c then e.len / pm.area c * max 0 (bndFluxT .upwind P 0 0 u e) else 0).sum

theorem hrT_flow_zero {P : FlowParams} {n : ℕ} {L R : TPrim} {sn cn : ℝ} {F : ℕ → ℝ}
    (h : hrTFlux .upwind P n L R sn cn = some F) :
    (hrTFlux .upwind P 0 L R sn cn).getD (fun _ => 0) 0 = F 0 := by
  unfold hrTFlux at h ⊢
  by_cases hw : L.p.h > P.tinyH ∨ R.p.h > P.tinyH
  · rw [if_pos hw] at h ⊢
    unfold tracerFlux at h ⊢
    by_cases hd : RoeDefined L.p.h R.p.h
    · rw [if_pos hd] at h ⊢
      simp only [Option.some.injEq] at h
      rw [← h]; rfl
    · rw [if_neg hd] at h
      exact absurd h (by simp)
  · rw [if_neg hw] at h ⊢
    simp only [Option.some.injEq] at h
    rw [← h]; rfl

theorem hrT_donor {P : FlowParams} {n j : ℕ} {L R : TPrim} {sn cn : ℝ} {F : ℕ → ℝ}
    (h : hrTFlux .upwind P n L R sn cn = some F) :
    (0 < F 0 → 0 < L.p.h ∧ F (3 + j) = F 0 * L.c j) ∧
    (F 0 < 0 → 0 < R.p.h ∧ F (3 + j) = F 0 * R.c j) ∧
    (F 0 = 0 → F (3 + j) = 0) := by
  unfold hrTFlux at h
  split at h
  · exact C47_donor h j
  · simp only [Option.some.injEq] at h
    rw [← h]
    simp

theorem hr_left_bound {P : FlowParams} {n j : ℕ} {L R : TPrim} {sn cn σ B s : ℝ} {F : ℕ → ℝ} (hs : 0 ≤ s)
    (h : hrTFlux .upwind P n L R sn cn = some F) (hR : GoodSide σ B j R) :
    σ * (F (3 + j) - B * F 0) * (-s) ≤ σ * (B - L.c j) * (s * max 0 (F 0)) := by
  obtain ⟨d1, d2, d3⟩ := hrT_donor (j := j) h
  rcases lt_trichotomy (F 0) 0 with hF | hF | hF
  · rw [max_eq_left (le_of_lt hF), (d2 hF).2]
    have := hR (d2 hF).1
    have : 0 ≤ -(F 0) * s * -(σ * (R.c j - B)) := by
      apply mul_nonneg (mul_nonneg (by linarith) hs)
      linarith
    nlinarith
  · rw [hF, d3 hF, max_self]
    linarith
  · rw [max_eq_right (le_of_lt hF), (d1 hF).2]
    apply le_of_eq
    ring

theorem hr_right_bound {P : FlowParams} {n j : ℕ} {L R : TPrim} {sn cn σ B s : ℝ} {F : ℕ → ℝ} (hs : 0 ≤ s)
    (h : hrTFlux .upwind P n L R sn cn = some F) (hL : GoodSide σ B j L) :
    σ * (F (3 + j) - B * F 0) * s ≤ σ * (B - R.c j) * (s * max 0 (-F 0)) := by
  obtain ⟨d1, d2, d3⟩ := hrT_donor (j := j) h
  rcases lt_trichotomy (F 0) 0 with hF | hF | hF
  · rw [max_eq_right (by linarith), (d2 hF).2]
    apply le_of_eq
    ring
  · rw [hF, d3 hF, neg_zero, max_self]
    linarith
  · rw [max_eq_left (by linarith), (d1 hF).2]
    have := hL (d1 hF).1
    have : 0 ≤ F 0 * s * -(σ * (L.c j - B)) := by
      apply mul_nonneg (mul_nonneg (le_of_lt hF) hs)
      linarith
    nlinarith

/-- the concentration the interior operator attributes to a cell -/
noncomputable def hrConc (P : FlowParams) (s : TCons) (j : ℕ) : ℝ :=
  if s.q.h > P.tinyH then s.hc j / s.q.h else 0

theorem hr_excess_bound {P : FlowParams} {n j : ℕ} {pm : PMesh} {bnd : List TBEdge} {u : ℕ → TCons}
    {f : ℕ → ℕ → ℝ} {σ B : ℝ} {c : ℕ} (hinj : OwnedInj pm) (hm : PosMesh pm bnd)
    (hc : c < pm.numCells) (ho : pm.owned c = true)
    (hu : ∀ c' < pm.numCells, ∀ z zmax, z ≤ zmax → GoodSide σ B j (hrTState P z zmax (u c')))
    (hb : ∀ e ∈ bnd, GoodSide σ B j
      (tracerRight P.tinyH e.bc (tracerVelocities P.tinyH (u e.cell)) e.sn e.cn))
    (hcc : (tracerVelocities P.tinyH (u c)).c j = hrConc P (u c) j)
    (h : tracerDiv true .upwind P n pm bnd u = some f) :
    σ * (f (pm.l2o c) (3 + j) - B * f (pm.l2o c) 0) ≤
      σ * (B - hrConc P (u c) j) * outRateHR P pm bnd u c := by
  unfold tracerDiv at h
  rw [if_pos rfl] at h
  unfold tracerDivergenceHR at h
  rw [Option.bind_eq_some_iff] at h
  obtain ⟨f1, h1, h2⟩ := h
  set K := σ * (B - hrConc P (u c) j) with hK
  have hac := hm.area c hc
  have e1 := foldlM_sum_le _ (excess pm σ B c j) (fun e : IEdge => K * (match e.right with
    | none => 0
    | some r =>
      (if e.left = c then e.len / pm.area c *
        max 0 (edgeFluxTHR .upwind P 0 0 (pm.zc e.left) (pm.zc r) (u e.left) (u r) e.sn e.cn) else 0) +
      if r = c then e.len / pm.area c *
        max 0 (-edgeFluxTHR .upwind P 0 0 (pm.zc e.left) (pm.zc r) (u e.left) (u r) e.sn e.cn)
        else 0)) pm.internal _ _ (by
      intro f e f' he hs
      unfold hrTEdge at hs
      cases hr : e.right with
      | none =>
        rw [hr] at hs
        simp only [Option.some.injEq] at hs
        rw [← hs]
        simp
      | some r =>
        rw [hr] at hs
        simp only at hs ⊢
        by_cases hw : (u r).q.h < P.tinyH ∧ (u e.left).q.h < P.tinyH
        · rw [if_pos hw] at hs
          simp only [Option.some.injEq] at hs
          have hE : edgeFluxTHR .upwind P 0 0 (pm.zc e.left) (pm.zc r) (u e.left) (u r) e.sn e.cn = 0 := by
            unfold edgeFluxTHR
            rw [if_pos hw]
          rw [← hs, hE]
          simp
        · rw [if_neg hw] at hs
          simp only [Option.map_eq_some_iff] at hs
          obtain ⟨F, hF, hs⟩ := hs
          have hl := hm.left e he
          have hrr := hm.right e he r hr
          have hsc : 0 ≤ e.len / pm.area c := div_nonneg (hm.len e he) (le_of_lt hac)
          have h0 : edgeFluxTHR .upwind P 0 0 (pm.zc e.left) (pm.zc r) (u e.left) (u r) e.sn e.cn = F 0 := by
            unfold edgeFluxTHR
            rw [if_neg hw]
            exact hrT_flow_zero hF
          rw [← hs, excess_add hinj _ hc hrr ho, excess_add hinj _ hc hl ho, excess_add hinj _ hc hrr ho,
            excess_add hinj _ hc hl ho]
          simp only [h0, corr_flow.1, corr_flow.2, mul_zero, sub_zero, zero_mul, ite_self, add_zero]
          rw [add_assoc, mul_add]
          apply add_le_add le_rfl
          apply add_le_add
          · by_cases hx : e.left = c
            · rw [if_pos hx, if_pos hx, hK, ← hx, neg_div]
              rw [← hx] at hsc
              exact hr_left_bound hsc hF (hu r hrr _ _ (le_max_right _ _))
            · rw [if_neg hx, if_neg hx, mul_zero]
          · by_cases hx : r = c
            · rw [if_pos hx, if_pos hx, hK, ← hx]
              rw [← hx] at hsc
              exact hr_right_bound hsc hF (hu e.left hl _ _ (le_max_left _ _))
            · rw [if_neg hx, if_neg hx, mul_zero]) h1
  have e2 := foldlM_sum_le _ (excess pm σ B c j) (fun e : TBEdge => K *
      if e.cell = c then e.len / pm.area c * max 0 (bndFluxT .upwind P 0 0 u e) else 0) bnd _ _ (by
      intro f e f' he hs
      unfold tracerBEdge at hs
      by_cases hoe : pm.owned e.cell = true
      · rw [if_pos hoe] at hs
        simp only [Option.map_eq_some_iff] at hs
        obtain ⟨F, hF, hs⟩ := hs
        have hl := hm.cell e he
        have hsc : 0 ≤ e.len / pm.area c := div_nonneg (hm.blen e he) (le_of_lt hac)
        have h0 : bndFluxT .upwind P 0 0 u e = F 0 := used_flow_zero hF
        rw [← hs, excess_add hinj _ hc hl ho, h0]
        apply add_le_add le_rfl
        by_cases hx : e.cell = c
        · rw [if_pos hx, if_pos hx, hK, ← hcc, ← hx, neg_div]
          rw [← hx] at hsc
          exact left_bound hsc hF (hb e he)
        · rw [if_neg hx, if_neg hx, mul_zero]
      · rw [if_neg hoe] at hs
        simp only [Option.some.injEq] at hs
        have hx : e.cell ≠ c := fun h => hoe (h ▸ ho)
        rw [← hs, if_neg hx]
        simp) h2
  have hz : excess pm σ B c j (fun _ _ => 0) = 0 := by unfold excess; ring
  have hmul : ∀ {α : Type} (l : List α) (d : α → ℝ), (l.map fun e => K * d e).sum = K * (l.map d).sum := by
    intro α l d
    induction l with
    | nil => simp
    | cons a l ih => simp only [List.map_cons, List.sum_cons, ih]; ring
  rw [hmul] at e1 e2
  unfold outRateHR
  rw [mul_add]
  have : excess pm σ B c j f = σ * (f (pm.l2o c) (3 + j) - B * f (pm.l2o c) 0) := rfl
  linarith

theorem outRateHR_nonneg {P : FlowParams} {pm : PMesh} {bnd : List TBEdge} (hm : PosMesh pm bnd)
    (u : ℕ → TCons) {c : ℕ} (hc : c < pm.numCells) : 0 ≤ outRateHR P pm bnd u c := by
  have hac := hm.area c hc
  unfold outRateHR
  apply add_nonneg
  · apply List.sum_nonneg
    intro x hx
    rw [List.mem_map] at hx
    obtain ⟨e, he, rfl⟩ := hx
    have hsc : 0 ≤ e.len / pm.area c := div_nonneg (hm.len e he) (le_of_lt hac)
    cases e.right with
    | none => exact le_rfl
    | some r =>
      apply add_nonneg
      · split
        · exact mul_nonneg hsc (le_max_left _ _)
        · exact le_rfl
      · split
        · exact mul_nonneg hsc (le_max_left _ _)
        · exact le_rfl
  · apply List.sum_nonneg
    intro x hx
    rw [List.mem_map] at hx
    obtain ⟨e, he, rfl⟩ := hx
    have hsc : 0 ≤ e.len / pm.area c := div_nonneg (hm.blen e he) (le_of_lt hac)
    split
    · exact mul_nonneg hsc (le_max_left _ _)
    · exact le_rfl

/-- Tracer `j` has a concentration between `m` and `M`, and there is no film of at most `tiny_h`. -/
def ConcInHR (tinyH m M : ℝ) (j : ℕ) (s : TCons) : Prop :=
  (s.q.h = 0 ∨ tinyH < s.q.h) ∧ m * s.q.h ≤ s.hc j ∧ s.hc j ≤ M * s.q.h

theorem ConcInHR.weak {tinyH m M : ℝ} {j : ℕ} {s : TCons} (h : ConcInHR tinyH m M j s) :
    ConcIn tinyH m M j s :=
  ⟨h.1.imp id le_of_lt, h.2⟩

theorem goodSideHR_of {P : FlowParams} {m M : ℝ} {j : ℕ} {s : TCons} (ht : 0 < P.tinyH)
    (h : ConcInHR P.tinyH m M j s) {z zmax : ℝ} (hz : z ≤ zmax) :
    GoodSide 1 M j (hrTState P z zmax s) ∧ GoodSide (-1) m j (hrTState P z zmax s) := by
  obtain ⟨h1, h2, h3⟩ := h
  have key : 0 < (hrTState P z zmax s).p.h →
      m ≤ (hrTState P z zmax s).c j ∧ (hrTState P z zmax s).c j ≤ M := by
    intro hp
    have hs : 0 ≤ s.q.h := by rcases h1 with h | h <;> linarith
    have := (hrT_depth_le P hz hs).1
    have hw : P.tinyH < s.q.h := by
      rcases h1 with h | h
      · linarith
      · exact h
    have hpos : 0 < s.q.h := by linarith
    change m ≤ (if s.q.h > P.tinyH then s.hc j / s.q.h else 0) ∧
      (if s.q.h > P.tinyH then s.hc j / s.q.h else 0) ≤ M
    rw [if_pos hw]
    exact ⟨(le_div_iff₀ hpos).mpr h2, (div_le_iff₀ hpos).mpr h3⟩
  exact ⟨fun hp => by have := (key hp).2; linarith, fun hp => by have := (key hp).1; linarith⟩

theorem hrConc_eq {P : FlowParams} {s : TCons} {j : ℕ} (ht : 0 < P.tinyH)
    (h : s.q.h = 0 ∨ P.tinyH < s.q.h) : (tracerVelocities P.tinyH s).c j = hrConc P s j := by
  unfold tracerVelocities hrConc
  rcases h with h | h
  · rw [if_pos (by rw [h]; exact ht), if_neg (by rw [h]; linarith)]
  · rw [if_neg (by linarith), if_pos h]

/-- C83. Discrete maximum principle of the upwind solver with hydrostatic reconstruction: on every mesh and
over every bed, if all concentrations of tracer `j` (in the cells and in the water let in at the boundaries)
lie between `m` and `M`, and no cell loses more water in the step than it holds, then after the step the
concentration of every owned cell lies between `m` and `M`. -/
theorem C83_bounds {P : FlowParams} {n j : ℕ} {pm : PMesh} {bnd : List TBEdge} {u : ℕ → TCons}
    {f : ℕ → ℕ → ℝ} {m M dt : ℝ} {c : ℕ} (hinj : OwnedInj pm) (hm : PosMesh pm bnd) (ht : 0 < P.tinyH)
    (hdt : 0 ≤ dt) (hc : c < pm.numCells) (ho : pm.owned c = true)
    (hu : ∀ c' < pm.numCells, ConcInHR P.tinyH m M j (u c')) (hb : ∀ e ∈ bnd, BCConcIn P.tinyH m M j e.bc)
    (h : tracerDiv true .upwind P n pm bnd u = some f)
    (hout : dt * outRateHR P pm bnd u c ≤ (u c).q.h) :
    m * ((u c).q.h + dt * f (pm.l2o c) 0) ≤ (u c).hc j + dt * f (pm.l2o c) (3 + j) ∧
    (u c).hc j + dt * f (pm.l2o c) (3 + j) ≤ M * ((u c).q.h + dt * f (pm.l2o c) 0) := by
  have hon := outRateHR_nonneg (P := P) hm u hc
  have hdo := mul_nonneg hdt hon
  have b1 := hr_excess_bound (P := P) (n := n) (j := j) (u := u) (f := f) (σ := 1) (B := M) hinj hm hc ho
    (fun c' hc' _ _ hz => (goodSideHR_of ht (hu c' hc') hz).1)
    (fun e he => goodSide_bc (hb e he) (goodSide_of (hu e.cell (hm.cell e he)).weak).1 (Or.inl ⟨rfl, rfl⟩))
    (hrConc_eq ht (hu c hc).1) h
  have b2 := hr_excess_bound (P := P) (n := n) (j := j) (u := u) (f := f) (σ := -1) (B := m) hinj hm hc ho
    (fun c' hc' _ _ hz => (goodSideHR_of ht (hu c' hc') hz).2)
    (fun e he => goodSide_bc (hb e he) (goodSide_of (hu e.cell (hm.cell e he)).weak).2 (Or.inr ⟨rfl, rfl⟩))
    (hrConc_eq ht (hu c hc).1) h
  have b1' := mul_le_mul_of_nonneg_left b1 hdt
  have b2' := mul_le_mul_of_nonneg_left b2 hdt
  obtain ⟨w1, w2, w3⟩ := hu c hc
  set O := outRateHR P pm bnd u c
  rcases w1 with hz | hw
  · have hO : dt * O = 0 := le_antisymm (by rw [hz] at hout; exact hout) hdo
    rw [hz] at w2 w3
    have hhc : (u c).hc j = 0 := le_antisymm (by linarith) (by linarith)
    rw [hz, hhc]
    have z1 : dt * (1 * (M - hrConc P (u c) j) * O) = 0 := by
      rw [show dt * (1 * (M - hrConc P (u c) j) * O) = (M - hrConc P (u c) j) * (dt * O) by ring, hO,
        mul_zero]
    have z2 : dt * (-1 * (m - hrConc P (u c) j) * O) = 0 := by
      rw [show dt * (-1 * (m - hrConc P (u c) j) * O) = -(m - hrConc P (u c) j) * (dt * O) by ring, hO,
        mul_zero]
    constructor <;> linarith
  · have hp : 0 < (u c).q.h := lt_trans ht hw
    have hk : hrConc P (u c) j = (u c).hc j / (u c).q.h := by
      unfold hrConc
      rw [if_pos hw]
    rw [hk] at b1' b2'
    set k := (u c).hc j / (u c).q.h with hkd
    have hkh : (u c).hc j = k * (u c).q.h := by rw [hkd]; field_simp
    have k1 : m ≤ k := (le_div_iff₀ hp).mpr w2
    have k2 : k ≤ M := (div_le_iff₀ hp).mpr w3
    have p1 := mul_nonneg (sub_nonneg.mpr k1) (sub_nonneg.mpr hout)
    have p2 := mul_nonneg (sub_nonneg.mpr k2) (sub_nonneg.mpr hout)
    rw [hkh]
    constructor <;> linarith

/-- C83. The bounds hold after any number of steps on any distributed mesh. -/
theorem C83_bounds_stay {np : ℕ} {P : FlowParams} {n j : ℕ} {pm : Fin np → PMesh}
    {bnd : Fin np → List TBEdge} {gid : Fin np → ℕ → ℕ} {m M : ℝ} (hj : j < n)
    (hinj : ∀ p, OwnedInj (pm p)) (hm : ∀ p, PosMesh (pm p) (bnd p)) (ht : 0 < P.tinyH)
    (hown : ∀ p, ∀ c < (pm p).numCells, ∃ q, ∃ c' < (pm q).numCells,
      (pm q).owned c' = true ∧ gid q c' = gid p c)
    (hb : ∀ p, ∀ e ∈ bnd p, BCConcIn P.tinyH m M j e.bc) (dt : ℕ → ℝ) (U : ℕ → ℕ → TCons) (N : ℕ)
    (hdt : ∀ i, 0 ≤ dt i)
    (hfilm : ∀ i < N, ∀ p, ∀ c < (pm p).numCells, (U i (gid p c)).q.h = 0 ∨ P.tinyH < (U i (gid p c)).q.h)
    (hout : ∀ i < N, ∀ p, ∀ c < (pm p).numCells, (pm p).owned c = true →
      dt i * outRateHR P (pm p) (bnd p) (fun c => U i (gid p c)) c ≤ (U i (gid p c)).q.h)
    (h0 : ∀ p, ∀ c < (pm p).numCells, m * (U 0 (gid p c)).q.h ≤ (U 0 (gid p c)).hc j ∧
      (U 0 (gid p c)).hc j ≤ M * (U 0 (gid p c)).q.h)
    (h : ∀ i < N, TransportStepHR .upwind P n pm bnd gid (dt i) (U i) (U (i + 1))) :
    ∀ p, ∀ c < (pm p).numCells, m * (U N (gid p c)).q.h ≤ (U N (gid p c)).hc j ∧
      (U N (gid p c)).hc j ≤ M * (U N (gid p c)).q.h := by
  induction N with
  | zero => exact h0
  | succ N ih =>
    have ih' := ih (fun i hi => hfilm i (Nat.lt_succ_of_lt hi))
      (fun i hi => hout i (Nat.lt_succ_of_lt hi)) fun i hi => h i (Nat.lt_succ_of_lt hi)
    intro p c hc
    obtain ⟨q, c', hc', ho', hgid⟩ := hown p c hc
    rw [← hgid]
    obtain ⟨f, h1, h2⟩ := h N (Nat.lt_succ_self N) q
    obtain ⟨a1, a2⟩ := h2 c' hc' ho'
    rw [a1, a2 j hj]
    exact C83_bounds (u := fun c => U N (gid q c)) (hinj q) (hm q) ht (hdt N) hc' ho'
      (fun c hc => ⟨hfilm N (Nat.lt_succ_self N) q c hc, (ih' q c hc).1, (ih' q c hc).2⟩) (hb q) h1
      (hout N (Nat.lt_succ_self N) q c' hc' ho')

/-- polluted water above a step, clean water below it, for every step short enough -/
example (dt : ℝ) (hdt : 0 ≤ dt) (f : ℕ → ℕ → ℝ)
    (h : tracerDiv true .upwind exParams 1 (exSquares (-2)) []
      (fun c => if c = 0 then ⟨⟨1, 2, 0⟩, fun _ => 0.5⟩ else ⟨⟨1, 0, 0⟩, fun _ => 0⟩) = some f)
    (hout : dt * outRateHR exParams (exSquares (-2)) []
      (fun c => if c = 0 then ⟨⟨1, 2, 0⟩, fun _ => 0.5⟩ else ⟨⟨1, 0, 0⟩, fun _ => 0⟩) 1 ≤ 1) :
    0 ≤ dt * f 1 3 ∧ dt * f 1 3 ≤ 0.5 * (1 + dt * f 1 0) := by
  have := C83_bounds (P := exParams) (n := 1) (j := 0) (pm := exSquares (-2)) (bnd := [])
    (u := fun c => if c = 0 then ⟨⟨1, 2, 0⟩, fun _ => 0.5⟩ else ⟨⟨1, 0, 0⟩, fun _ => 0⟩) (f := f)
    (m := 0) (M := 0.5) (dt := dt) (c := 1) (exSquares_inj (-2)) (exSquares_pos (-2))
    (by norm_num [exParams]) hdt (by norm_num [exSquares]) rfl
    (by
      intro c _
      by_cases hc : c = 0
      · simp only [if_pos hc]
        exact ⟨Or.inr (by norm_num [exParams]), by norm_num, by norm_num⟩
      · simp only [if_neg hc]
        exact ⟨Or.inr (by norm_num [exParams]), by norm_num, by norm_num⟩)
    (by simp) h (by simpa using hout)
  simp only [exSquares, one_ne_zero, if_false, zero_mul, zero_add] at this
  exact this

/-- clean and polluted water on two processes; a step short enough exists -/
example (U : ℕ → TCons) (hU : U = fun c => ⟨⟨1, 1, 0⟩, fun _ => if c = 0 then 0 else 0.5⟩) :
    ∃ dt U', 0 < dt ∧ TransportStepHR .upwind exParams 1 exMesh
      (fun p => [⟨0, 1, 0, if p = 0 then -1 else 1, .reflecting⟩]) exGid dt U U' ∧
      (U' 1).hc 0 ≤ 0.5 * (U' 1).q.h := by
  have hn : ∀ p : Fin 2, 0 ≤ outRateHR exParams (exMesh p)
      [⟨0, 1, 0, if p = 0 then -1 else 1, .reflecting⟩] (fun c => U (exGid p c)) 0 := fun p =>
    outRateHR_nonneg (exMesh_pos p) _ (by norm_num [exMesh])
  set r : Fin 2 → ℝ := fun p => outRateHR exParams (exMesh p)
      [⟨0, 1, 0, if p = 0 then -1 else 1, .reflecting⟩] (fun c => U (exGid p c)) 0 with hr
  have hp : 0 < 1 + r 0 + r 1 := by have := hn 0; have := hn 1; linarith
  have hle : ∀ p, (1 / (1 + r 0 + r 1)) * r p ≤ 1 := by
    intro p
    rw [one_div, inv_mul_le_iff₀ hp]
    have := hn 0; have := hn 1
    fin_cases p
    · simp only [Fin.zero_eta]; linarith
    · simp only [Fin.mk_one]; linarith
  obtain ⟨U', hs⟩ := exTransportHR .upwind 1 (1 / (1 + r 0 + r 1)) U (fun c => by rw [hU]; norm_num)
  refine ⟨1 / (1 + r 0 + r 1), U', by positivity, hs, ?_⟩
  refine (C83_bounds_stay (P := exParams) (n := 1) (pm := exMesh) (gid := exGid)
    (bnd := fun p => [⟨0, 1, 0, if p = 0 then -1 else 1, .reflecting⟩]) (j := 0) (m := 0) (M := 0.5)
    (by norm_num) exPartitioned.inj exMesh_pos (by norm_num [exParams]) exMesh_own ?_
    (fun _ => 1 / (1 + r 0 + r 1)) (fun i => if i = 0 then U else U') 1 (fun _ => by positivity) ?_ ?_ ?_ ?_ 1 0
    (by norm_num [exMesh])).2
  · intro p e he
    rw [List.mem_singleton] at he
    subst he
    trivial
  · intro i hi p c _
    have : i = 0 := by omega
    subst this
    right
    simp only [if_true, hU, exParams]
    norm_num
  · intro i hi p c _ ho
    have : i = 0 := by omega
    subst this
    simp only [exMesh, beq_iff_eq] at ho
    subst ho
    have h1 : (U (exGid p 0)).q.h = 1 := by rw [hU]
    simp only [if_true]
    rw [h1]
    exact hle p
  · intro p c _
    simp only [if_true, hU]
    split <;> norm_num
  · intro i hi
    have : i = 0 := by omega
    subst this
    exact hs

/-! ### Still water -/

/-- no tracer moves between two equal states at rest, whatever the concentrations -/
theorem tracerFlux_rest {sv : TSolver} {g h : ℝ} {n : ℕ} (cL cR : ℕ → ℝ) (sn cn : ℝ) {F : ℕ → ℝ}
    (hF : tracerFlux sv g n ⟨⟨h, 0, 0⟩, cL⟩ ⟨⟨h, 0, 0⟩, cR⟩ sn cn = some F) {j : ℕ} (hj : j < n) :
    F (3 + j) = 0 := by
  have hup : uperp (roeAvg h h 0 0) (roeAvg h h 0 0) sn cn = 0 := by simp [uperp, roeAvg]
  have w1 : (roeEig g ⟨h, 0, 0⟩ ⟨h, 0, 0⟩ sn cn).w1 = 0 := by simp [roeEig, uperp]
  have w3 : (roeEig g ⟨h, 0, 0⟩ ⟨h, 0, 0⟩ sn cn).w3 = 0 := by simp [roeEig, uperp]
  have a2 : (roeEig g ⟨h, 0, 0⟩ ⟨h, 0, 0⟩ sn cn).a2 = 0 := by simp [roeEig, hup]
  unfold tracerFlux at hF
  split at hF
  · cases sv with
    | roe =>
      simp only [Option.some.injEq] at hF
      rw [← hF, tracerCombine_tracer g _ _ _ sn cn hj]
      simp only [w1, w3, a2, uperp]
      ring
    | upwind =>
      simp only [Option.some.injEq] at hF
      have hm : upwindCombine g ⟨⟨h, 0, 0⟩, cL⟩ ⟨⟨h, 0, 0⟩, cR⟩
          (roeEig g ⟨h, 0, 0⟩ ⟨h, 0, 0⟩ sn cn) sn cn 0 = 0 := by
        rw [upwindCombine_zero, roe_mass]
        simp only [w1, w3, uperp]
        ring
      rw [← hF, upwindCombine_tracer, hm, zero_mul]
  · exact absurd hF (by simp)

theorem addOwnedT_zero {pm : PMesh} {f : ℕ → ℕ → ℝ} {c : ℕ} {F : ℕ → ℝ} {s : ℝ} {d : ℕ}
    (hF : F d = 0) (hf : ∀ i, f i d = 0) : ∀ i, addOwnedT pm f c F s i d = 0 := by
  intro i
  unfold addOwnedT
  by_cases ho : pm.owned c = true
  · rw [if_pos ho]
    by_cases hi : i = pm.l2o c
    · simp only [if_pos hi, hF, hf]; ring
    · simp only [if_neg hi, hf]
  · rw [if_neg ho, hf]

/-- Boundaries at which a lake with tracers can rest. -/
def RestBoundariesT (eta : ℝ) (pm : PMesh) (bnd : List TBEdge) : Prop :=
  ∀ e ∈ bnd, e.cell < pm.numCells ∧
    (e.bc = .reflecting ∨ ∃ hc, e.bc = .dirichlet ⟨restState eta (pm.zc e.cell), hc⟩)

theorem velocitiesT_rest (tinyH eta z : ℝ) (hc : ℕ → ℝ) :
    (tracerVelocities tinyH ⟨restState eta z, hc⟩).p = ⟨(restState eta z).h, 0, 0⟩ := by
  unfold tracerVelocities restState
  split <;> simp

/-- C83. Still water moves no tracer: on every mesh and over every bed, with a level surface (cells may be
dry), whatever the concentrations of the cells, no tracer crosses an edge, for both solvers. -/
theorem C83_rest_tracers {sv : TSolver} {P : FlowParams} {n : ℕ} {pm : PMesh} {bnd : List TBEdge}
    {eta : ℝ} {u : ℕ → TCons} {f : ℕ → ℕ → ℝ} (hv : EdgesValid pm)
    (hb : RestBoundariesT eta pm bnd) (hu : ∀ c < pm.numCells, (u c).q = restState eta (pm.zc c))
    (h : tracerDiv true sv P n pm bnd u = some f) {j : ℕ} (hj : j < n) : ∀ i, f i (3 + j) = 0 := by
  unfold tracerDiv at h
  rw [if_pos rfl] at h
  unfold tracerDivergenceHR at h
  rw [Option.bind_eq_some_iff] at h
  obtain ⟨f1, h1, h2⟩ := h
  have i1 : ∀ i, f1 i (3 + j) = 0 := by
    refine foldlM_inv _ (fun f : ℕ → ℕ → ℝ => ∀ i, f i (3 + j) = 0) pm.internal _ _ ?_ (by simp) h1
    intro f e f' he hf hs
    unfold hrTEdge at hs
    cases hr : e.right with
    | none =>
      rw [hr] at hs
      simp only [Option.some.injEq] at hs
      rw [← hs]; exact hf
    | some r =>
      rw [hr] at hs
      simp only at hs
      by_cases hd : (u r).q.h < P.tinyH ∧ (u e.left).q.h < P.tinyH
      · rw [if_pos hd] at hs
        simp only [Option.some.injEq] at hs
        rw [← hs]; exact hf
      · rw [if_neg hd] at hs
        simp only [Option.map_eq_some_iff] at hs
        obtain ⟨F, hF, hs⟩ := hs
        have hl := hv.left e he
        have hrr := hv.right e he r hr
        have hc : F (3 + j) = 0 := by
          unfold hrTFlux at hF
          split at hF
          · have eL : (hrTState P (pm.zc e.left) (max (pm.zc e.left) (pm.zc r)) (u e.left)).p =
                ⟨min (max 0 (eta - pm.zc e.left)) (max 0 (eta - pm.zc r)), 0, 0⟩ := by
              change hrState _ _ _ (u e.left).q = _
              rw [hu _ hl, hrState_rest]
            have eR : (hrTState P (pm.zc r) (max (pm.zc e.left) (pm.zc r)) (u r)).p =
                ⟨min (max 0 (eta - pm.zc e.left)) (max 0 (eta - pm.zc r)), 0, 0⟩ := by
              change hrState _ _ _ (u r).q = _
              rw [hu _ hrr, max_comm, hrState_rest, min_comm]
            have sL : hrTState P (pm.zc e.left) (max (pm.zc e.left) (pm.zc r)) (u e.left) =
                ⟨⟨min (max 0 (eta - pm.zc e.left)) (max 0 (eta - pm.zc r)), 0, 0⟩,
                  (hrTState P (pm.zc e.left) (max (pm.zc e.left) (pm.zc r)) (u e.left)).c⟩ := by
              rw [← eL]
            have sR : hrTState P (pm.zc r) (max (pm.zc e.left) (pm.zc r)) (u r) =
                ⟨⟨min (max 0 (eta - pm.zc e.left)) (max 0 (eta - pm.zc r)), 0, 0⟩,
                  (hrTState P (pm.zc r) (max (pm.zc e.left) (pm.zc r)) (u r)).c⟩ := by
              rw [← eR]
            rw [sL, sR] at hF
            exact tracerFlux_rest _ _ _ _ hF hj
          · simp only [Option.some.injEq] at hF
            rw [← hF]
        rw [← hs]
        exact addOwnedT_zero (corr_flow.2 j) (addOwnedT_zero (corr_flow.2 j)
          (addOwnedT_zero hc (addOwnedT_zero hc hf)))
  refine foldlM_inv _ (fun f : ℕ → ℕ → ℝ => ∀ i, f i (3 + j) = 0) bnd _ _ ?_ i1 h2
  intro f e f' he hf hs
  unfold tracerBEdge at hs
  by_cases ho : pm.owned e.cell = true
  · rw [if_pos ho] at hs
    simp only [Option.map_eq_some_iff] at hs
    obtain ⟨F, hF, hs⟩ := hs
    obtain ⟨hcell, hbc⟩ := hb e he
    have hc : F (3 + j) = 0 := by
      unfold usedTracerFlux at hF
      split at hF
      · have hq : u e.cell = ⟨restState eta (pm.zc e.cell), (u e.cell).hc⟩ := by
          rw [← hu _ hcell]
        have eL : (tracerVelocities P.tinyH (u e.cell)).p = ⟨(restState eta (pm.zc e.cell)).h, 0, 0⟩ := by
          rw [hq, velocitiesT_rest]
        have eR : (tracerRight P.tinyH e.bc (tracerVelocities P.tinyH (u e.cell)) e.sn e.cn).p =
            ⟨(restState eta (pm.zc e.cell)).h, 0, 0⟩ := by
          rcases hbc with hbc | ⟨hc, hbc⟩
          · rw [hbc]
            simp only [tracerRight, eL, reflectRight]
            simp
          · rw [hbc]
            exact velocitiesT_rest _ _ _ _
        have sL : tracerVelocities P.tinyH (u e.cell) =
            ⟨⟨(restState eta (pm.zc e.cell)).h, 0, 0⟩, (tracerVelocities P.tinyH (u e.cell)).c⟩ := by
          rw [← eL]
        have sR : tracerRight P.tinyH e.bc (tracerVelocities P.tinyH (u e.cell)) e.sn e.cn =
            ⟨⟨(restState eta (pm.zc e.cell)).h, 0, 0⟩,
              (tracerRight P.tinyH e.bc (tracerVelocities P.tinyH (u e.cell)) e.sn e.cn).c⟩ := by
          rw [← eR]
        rw [sR] at hF
        generalize (tracerRight P.tinyH e.bc (tracerVelocities P.tinyH (u e.cell)) e.sn e.cn).c = cR at hF
        rw [sL] at hF
        exact tracerFlux_rest _ _ _ _ hF hj
      · simp only [Option.some.injEq] at hF
        rw [← hF]
    rw [← hs]
    exact addOwnedT_zero hc hf
  · rw [if_neg ho] at hs
    simp only [Option.some.injEq] at hs
    rw [← hs]; exact hf

example (f : ℕ → ℕ → ℝ)
    (h : tracerDiv true .roe exParams 2 (exSquares 0.5) [⟨0, 1, 0, -1, .reflecting⟩]
      (fun c => ⟨restState 1 ((exSquares 0.5).zc c), fun j => c + j⟩) = some f) : f 1 4 = 0 := by
  refine C83_rest_tracers (j := 1) (eta := 1) (exSquares_valid 0.5) ?_ (fun c _ => rfl) h (by norm_num) 1
  intro e he
  rw [List.mem_singleton] at he
  subst he
  exact ⟨by norm_num [exSquares], Or.inl rfl⟩

/-- a roughness by owned number that agrees with a roughness by local number -/
theorem exists_owned_roughness {pm : PMesh} (hinj : OwnedInj pm) (mann : ℕ → ℝ) :
    ∃ mann' : ℕ → ℝ, ∀ c < pm.numCells, pm.owned c = true → mann' (pm.l2o c) = mann c := by
  classical
  refine ⟨fun o => if h : ∃ c, c < pm.numCells ∧ pm.owned c = true ∧ pm.l2o c = o then
    mann (Classical.choose h) else 0, ?_⟩
  intro c hc ho
  have hex : ∃ c', c' < pm.numCells ∧ pm.owned c' = true ∧ pm.l2o c' = pm.l2o c := ⟨c, hc, ho, rfl⟩
  simp only
  rw [dif_pos hex]
  obtain ⟨a, b, d⟩ := Classical.choose_spec hex
  rw [hinj _ a c hc b ho d]

/-- C83. A lake at rest stays at rest with tracers: with hydrostatic reconstruction, on every mesh of closed
cells, over every bed, with any roughness, any concentrations and any `h_anuga_regular`, the flow components of
the right-hand side with tracers are zero in every owned cell. -/
theorem C83_rest_flow {sv : TSolver} {P : FlowParams} {n : ℕ} {pm : PMesh} {bnd : List TBEdge} {dt : ℝ}
    (mann : ℕ → ℝ) {eta : ℝ} {src : ℕ → ℕ → ℝ} {u : ℕ → TCons} (hg : 0 < P.g) (ht : 0 < P.tinyH)
    (hx : 0 < P.xqThreshold) (hdt : 0 ≤ dt) (hinj : OwnedInj pm) (hv : EdgesValid (pm.withFlow bnd))
    (hclosed : ClosedCells (pm.withFlow bnd)) (hf : NoFilm P eta pm) (hb : RestBoundariesT eta pm bnd)
    (hsrc : ∀ i, ∀ d < 3, src i d = 0) (hu : ∀ c < pm.numCells, (u c).q = restState eta (pm.zc c)) :
    ∃ f, tracerRhs true sv P n pm bnd dt src mann u = some f ∧
      ∀ c < pm.numCells, pm.owned c = true → ∀ d < 3, f (pm.l2o c) d = 0 := by
  obtain ⟨mann', hm⟩ := exists_owned_roughness hinj mann
  have hrest : ∀ (z : ℝ), VelOK P (restState eta z) := fun z => Or.inr (Or.inr ⟨rfl, rfl⟩)
  have hflow := C84_partial true sv P n pm bnd dt src (mann := mann) (mann' := mann') u ht (by simp) (by
    intro e he
    obtain ⟨hc, hbc⟩ := hb e he
    refine ⟨by rw [hu _ hc]; exact hrest _, ?_⟩
    rcases hbc with h | ⟨x, h⟩
    · rw [h]; trivial
    · rw [h]; exact hrest _) hm
  have hb' : RestBoundaries eta (pm.withFlow bnd) := by
    intro e he
    change e ∈ bnd.map TBEdge.flow at he
    rw [List.mem_map] at he
    obtain ⟨t, ht, rfl⟩ := he
    obtain ⟨hc, hbc⟩ := hb t ht
    rcases hbc with h | ⟨x, h⟩
    · left; change t.bc.flow = _; rw [h]; rfl
    · right; change t.bc.flow = _; rw [h]; rfl
  obtain ⟨f0, r1, r2⟩ := C43_rest_zero (P := P) .semiImplicit (pm := pm.withFlow bnd) (dt := dt) mann'
    (eta := eta) (src := fun i => toFlux (src i)) (u := fun c => (u c).q) hg ht hx hdt hinj hv hclosed hf hb'
    (fun i => by unfold toFlux; rw [hsrc i 0 (by norm_num), hsrc i 1 (by norm_num), hsrc i 2 (by norm_num)])
    hu
  rw [r1, Option.map_eq_some_iff] at hflow
  obtain ⟨f, hf1, hf2⟩ := hflow
  refine ⟨f, hf1, ?_⟩
  intro c hc ho d hd
  have := r2 c hc ho
  rw [← hf2] at this
  unfold flowOf at this
  rw [Flux.ext_iff] at this
  obtain ⟨t0, t1, t2⟩ := this
  interval_cases d
  · exact t0
  · exact t1
  · exact t2

/-- the walls of the two squares, for a run with tracers -/
def exWalls : List TBEdge :=
  [⟨0, 1, 0, -1, .reflecting⟩, ⟨0, 1, 1, 0, .reflecting⟩, ⟨0, 1, -1, 0, .reflecting⟩,
    ⟨1, 1, 0, 1, .reflecting⟩, ⟨1, 1, 1, 0, .reflecting⟩, ⟨1, 1, -1, 0, .reflecting⟩]

theorem exWalls_flow (z : ℝ) : (exSquares z).withFlow exWalls = exSquares z := rfl

/-- muddy water over an uneven bed -/
example (hc : ℕ → ℕ → ℝ) (mann : ℕ → ℝ) :
    ∃ f, tracerRhs true .upwind ⟨9.806, 1e-7, 0.01, 1e-10⟩ 2 (exSquares 0.5) exWalls 0.1 (fun _ _ => 0) mann
        (fun c => ⟨restState 1 ((exSquares 0.5).zc c), hc c⟩) = some f ∧
      ∀ c < 2, ∀ d < 3, f c d = 0 := by
  obtain ⟨f, h1, h2⟩ := C83_rest_flow (sv := .upwind) (P := ⟨9.806, 1e-7, 0.01, 1e-10⟩) (n := 2)
    (pm := exSquares 0.5) (bnd := exWalls) (dt := 0.1) mann (eta := 1) (src := fun _ _ => 0)
    (u := fun c => ⟨restState 1 ((exSquares 0.5).zc c), hc c⟩) (by norm_num) (by norm_num) (by norm_num)
    (by norm_num) (exSquares_inj _) (by rw [exWalls_flow]; exact exSquares_valid _)
    (by rw [exWalls_flow]; exact exSquares_closed _)
    (by
      intro c hc
      right
      simp only [exSquares]
      split <;> norm_num)
    (by
      intro e he
      simp only [exWalls, List.mem_cons, List.not_mem_nil, or_false] at he
      rcases he with h | h | h | h | h | h <;> subst h <;> exact ⟨by norm_num [exSquares], Or.inl rfl⟩)
    (fun _ _ _ => rfl) (fun _ _ => rfl)
  exact ⟨f, h1, fun c hc d hd => h2 c hc rfl d hd⟩

/-! ### Sources of each tracer -/

theorem tracerSourceCell_tracer {P : FlowParams} {sl : Bool} {n : ℕ} {pm : PMesh} {dt : ℝ} {src : ℕ → ℕ → ℝ}
    {mann : ℕ → ℝ} {fd f f' : ℕ → ℕ → ℝ} {u : ℕ → TCons} {c : ℕ}
    (h : tracerSourceCell P sl n pm dt src mann fd u f c = some f') {j : ℕ} (hj : j < n) (i : ℕ) :
    f' i (3 + j) = f i (3 + j) + if pm.owned c = true ∧ i = pm.l2o c then
      tracerSource P (mann (tracerManningIndex pm c)) (u c) (src (pm.l2o c) (3 + j)) j else 0 := by
  unfold tracerSourceCell at h
  by_cases ho : pm.owned c = true
  · rw [if_pos ho, Option.map_eq_some_iff] at h
    obtain ⟨t, -, h⟩ := h
    rw [← h]
    unfold addOwnedT
    rw [if_pos ho]
    by_cases hi : i = pm.l2o c
    · simp only [hi, if_true, ho, and_self, mul_one]
      rw [if_neg (by omega), if_neg (by omega), if_neg (by omega), if_pos (by omega)]
      congr 2
      omega
    · simp only [if_neg hi, hi, and_false, if_false, add_zero]
  · rw [if_neg ho] at h
    rw [← Option.some.inj h, if_neg (fun x => ho x.1), add_zero]

/-- C83. The right-hand side of every tracer, with or without hydrostatic reconstruction: in every owned cell it is
the flux divergence of that tracer, plus its own external source and erosion minus deposition from its own
concentration where the water is at least `tiny_h` deep (and nothing where it is not). -/
theorem C83_sources {hr : Bool} {sv : TSolver} {P : FlowParams} {n : ℕ} {pm : PMesh} {bnd : List TBEdge} {dt : ℝ}
    {src : ℕ → ℕ → ℝ} {mann : ℕ → ℝ} {u : ℕ → TCons} {F fd : ℕ → ℕ → ℝ} (hinj : OwnedInj pm)
    (hF : tracerRhs hr sv P n pm bnd dt src mann u = some F) (hd : tracerDiv hr sv P n pm bnd u = some fd)
    {c j : ℕ} (hc : c < pm.numCells) (ho : pm.owned c = true) (hj : j < n) :
    F (pm.l2o c) (3 + j) = fd (pm.l2o c) (3 + j) +
      if P.tinyH ≤ (u c).q.h then
        src (pm.l2o c) (3 + j) +
          erosionDeposition P.g (mann (tracerManningIndex pm c)) (u c).q ((u c).hc j)
      else 0 := by
  unfold tracerRhs at hF
  rw [hd] at hF
  change applyTracerSource P (!hr) n pm dt src mann fd u fd = some F at hF
  unfold applyTracerSource at hF
  have key := foldlM_sum (tracerSourceCell P (!hr) n pm dt src mann fd u)
    (fun f => f (pm.l2o c) (3 + j))
    (fun c' => if pm.owned c' = true ∧ pm.l2o c = pm.l2o c' then
      tracerSource P (mann (tracerManningIndex pm c')) (u c') (src (pm.l2o c') (3 + j)) j else 0)
  have := key (List.range pm.numCells) fd F (fun f c' f' _ h => tracerSourceCell_tracer h hj _) hF
  rw [this]
  congr 1
  rw [← List.sum_toFinset _ List.nodup_range, List.toFinset_range, Finset.sum_eq_single c]
  · rw [if_pos ⟨ho, rfl⟩]
    unfold tracerSource
    by_cases hw : P.tinyH ≤ (u c).q.h
    · rw [if_pos (show (u c).q.h ≥ P.tinyH from hw), if_pos hw, add_comm]
    · rw [if_neg (show ¬ (u c).q.h ≥ P.tinyH from hw), if_neg hw]
  · intro b hb hbc
    rw [if_neg]
    rintro ⟨ob, e⟩
    exact hbc (hinj b (Finset.mem_range.1 hb) c hc ob ho e.symm)
  · intro h
    exact absurd (Finset.mem_range.2 hc) h

example {F fd : ℕ → ℕ → ℝ} (src : ℕ → ℕ → ℝ) (mann : ℕ → ℝ)
    (hF : tracerRhs true .roe ⟨9.806, 1e-7, 0.01, 1e-10⟩ 2 (exSquares 0.5) exWalls 0.1 src mann
      (fun c => ⟨⟨1, c, 0⟩, fun j => c + j⟩) = some F)
    (hd : tracerDiv true .roe ⟨9.806, 1e-7, 0.01, 1e-10⟩ 2 (exSquares 0.5) exWalls
      (fun c => ⟨⟨1, c, 0⟩, fun j => c + j⟩) = some fd) :
    F 1 4 = fd 1 4 + (src 1 4 + erosionDeposition 9.806 (mann 1) ⟨1, 1, 0⟩ (1 + 1)) := by
  have := C83_sources (exSquares_inj _) hF hd (c := 1) (j := 1) (by norm_num [exSquares]) rfl (by norm_num)
  rw [if_pos (by norm_num)] at this
  simpa [exSquares, tracerManningIndex] using this

/-! ### Obstacles -/

/-- C83. A step in the bed is an obstacle: if the right cell is dry and its bed is not lower than the water
surface of the left cell, the edge moves neither water nor tracer into or out of either cell. -/
theorem C83_obstacle {sv : TSolver} {P : FlowParams} {n : ℕ} {pm : PMesh} {u : ℕ → TCons}
    {f f' : ℕ → ℕ → ℝ} {e : IEdge} {r : ℕ} (ht : 0 < P.tinyH) (hr : e.right = some r)
    (hdry : (u r).q.h = 0) (hstep : (u e.left).q.h + pm.zc e.left ≤ pm.zc r)
    (h : hrTEdge sv P n pm u f e = some f') :
    ∀ i, f' i 0 = f i 0 ∧ ∀ j, f' i (3 + j) = f i (3 + j) := by
  have keep : ∀ (F : ℕ → ℝ) (g : ℕ → ℕ → ℝ) (c : ℕ) (s : ℝ) (d : ℕ), F d = 0 →
      ∀ i, addOwnedT pm g c F s i d = g i d := by
    intro F g c s d hF i
    unfold addOwnedT
    by_cases ho : pm.owned c = true
    · rw [if_pos ho]
      by_cases hi : i = pm.l2o c
      · simp only [if_pos hi, hF, zero_mul, add_zero]
      · simp only [if_neg hi]
    · rw [if_neg ho]
  unfold hrTEdge at h
  rw [hr] at h
  simp only at h
  by_cases hd : (u r).q.h < P.tinyH ∧ (u e.left).q.h < P.tinyH
  · rw [if_pos hd] at h
    simp only [Option.some.injEq] at h
    rw [← h]
    exact fun i => ⟨rfl, fun _ => rfl⟩
  · rw [if_neg hd] at h
    simp only [Option.map_eq_some_iff] at h
    obtain ⟨F, hF, h⟩ := h
    have hmr : pm.zc r ≤ max (pm.zc e.left) (pm.zc r) := le_max_right _ _
    have eL : (hrTState P (pm.zc e.left) (max (pm.zc e.left) (pm.zc r)) (u e.left)).p.h = 0 := by
      change max 0 ((u e.left).q.h + pm.zc e.left - max (pm.zc e.left) (pm.zc r)) = 0
      exact max_eq_left (by linarith)
    have eR : (hrTState P (pm.zc r) (max (pm.zc e.left) (pm.zc r)) (u r)).p.h = 0 := by
      change max 0 ((u r).q.h + pm.zc r - max (pm.zc e.left) (pm.zc r)) = 0
      exact max_eq_left (by linarith)
    unfold hrTFlux at hF
    rw [eL, eR, if_neg (by rintro (h | h) <;> linarith)] at hF
    simp only [Option.some.injEq] at hF
    rw [← h]
    intro i
    constructor
    · rw [keep _ _ _ _ 0 rfl, keep _ _ _ _ 0 rfl, keep _ _ _ _ 0 (by rw [← hF]),
        keep _ _ _ _ 0 (by rw [← hF])]
    · intro j
      rw [keep _ _ _ _ _ (corr_flow.2 j), keep _ _ _ _ _ (corr_flow.2 j), keep _ _ _ _ _ (by rw [← hF]),
        keep _ _ _ _ _ (by rw [← hF])]

example (f' : ℕ → ℕ → ℝ)
    (h : hrTEdge .roe exParams 1 (exSquares 2)
      (fun c => if c = 0 then ⟨⟨1.5, 3, 0⟩, fun _ => 1⟩ else ⟨⟨0, 0, 0⟩, fun _ => 0⟩) (fun _ _ => 0)
      ⟨0, some 1, 1, 0, 1⟩ = some f') : f' 1 0 = 0 ∧ f' 1 3 = 0 := by
  obtain ⟨a, b⟩ := C83_obstacle (r := 1) (by norm_num [exParams]) rfl (by norm_num) (by norm_num [exSquares]) h 1
  exact ⟨a, b 0⟩

/-! ### The two backends -/

/-- C83, partial: for two cells whose reconstructed depths both exceed the dry threshold, the CEED kernel
computes the Roe fluxes of the PETSc operator for all components. For the rest see
`C83_waterfall_violated` and `C83_solver_violated`. -/
theorem C83_ceed_partial {P : FlowParams} (n : ℕ) (zL zR : ℝ) (qL qR : TCons) (sn cn : ℝ) (hg : 0 ≤ P.g)
    (ht : 0 < P.tinyH) (hqL : 0 ≤ qL.q.h)
    (hL : P.tinyH < max 0 (qL.q.h + zL - max zL zR)) (hR : P.tinyH < max 0 (qR.q.h + zR - max zL zR)) :
    hrTFluxCeed P n zL zR qL qR sn cn =
      hrTFlux .roe P n (hrTState P zL (max zL zR) qL) (hrTState P zR (max zL zR) qR) sn cn := by
  have dL := (hrT_depth_le P (le_max_left zL zR) hqL).1
  have eL : (hrTState P zL (max zL zR) qL).p.h = max 0 (qL.q.h + zL - max zL zR) := rfl
  have eR : (hrTState P zR (max zL zR) qR).p.h = max 0 (qR.q.h + zR - max zL zR) := rfl
  have hwL : qL.q.h > P.tinyH := by rw [eL] at dL; linarith
  unfold hrTFluxCeed
  rw [if_pos (Or.inl hwL), C48_tracer_partial .roe n _ _ sn cn hg ht hL hR]
  have conv : ∀ (z : ℝ) (q : TCons), P.tinyH < max 0 (q.q.h + z - max zL zR) →
      tracerVelocities P.tinyH (hrTStateCeed P z (max zL zR) q) = hrTState P z (max zL zR) q := by
    intro z q hq
    have hne : max 0 (q.q.h + z - max zL zR) ≠ 0 := by linarith
    unfold tracerVelocities
    have : ¬ (hrTStateCeed P z (max zL zR) q).q.h < P.tinyH := by
      change ¬ max 0 (q.q.h + z - max zL zR) < P.tinyH
      linarith
    rw [if_neg this]
    unfold hrTStateCeed hrTState hrState
    simp only
    congr 1
    · congr 1
      · rw [mul_div_cancel_left₀ _ hne]
      · rw [mul_div_cancel_left₀ _ hne]
    · funext j
      rw [mul_div_cancel_left₀ _ hne]
  rw [conv zL qL hL, conv zR qR hR]
  unfold usedTracerFlux hrTFlux
  rw [if_pos (by rw [eL, eR]; exact fun h => absurd h.1 (not_lt.mpr hR.le)),
    if_pos (Or.inl (by rw [eL]; exact hL))]

example : hrTFluxCeed exParams 2 0 1 ⟨⟨3, 1, 0⟩, fun j => j⟩ ⟨⟨2, 1, 1⟩, fun _ => 1⟩ 0.6 0.8 =
    hrTFlux .roe exParams 2 (hrTState exParams 0 (max 0 1) ⟨⟨3, 1, 0⟩, fun j => j⟩)
      (hrTState exParams 1 (max 0 1) ⟨⟨2, 1, 1⟩, fun _ => 1⟩) 0.6 0.8 :=
  C83_ceed_partial (P := exParams) 2 0 1 ⟨⟨3, 1, 0⟩, fun j => j⟩ ⟨⟨2, 1, 1⟩, fun _ => 1⟩ 0.6 0.8
    (by norm_num [exParams]) (by norm_num [exParams]) (by norm_num) (by norm_num [exParams])
    (by norm_num [exParams])

/-- C83 (disagreement). Water falling over a step spoils a CEED run with tracers: two wet cells, the water
surface of the right one not above the bed of the left one. The CEED kernel divides 0 by 0 (the concentration
of the empty reconstructed right state is guarded by the depth of the left one), so all tracers of both cells
become NaN; the PETSc operator computes a flux. -/
theorem C83_waterfall_violated {P : FlowParams} (sv : TSolver) (n : ℕ) {zL zR : ℝ} {qL qR : TCons} (sn cn : ℝ)
    (ht : 0 < P.tinyH) (hL : P.tinyH < qL.q.h) (hz : qR.q.h + zR ≤ zL) (hR : 0 ≤ qR.q.h) :
    hrTFluxCeed P n zL zR qL qR sn cn = none ∧
    (hrTFlux sv P n (hrTState P zL (max zL zR) qL) (hrTState P zR (max zL zR) qR) sn cn).isSome := by
  have hzz : max zL zR = zL := max_eq_left (by linarith)
  have eL : max 0 (qL.q.h + zL - max zL zR) = qL.q.h := by
    rw [hzz, add_sub_cancel_right, max_eq_right (by linarith)]
  have eR : max 0 (qR.q.h + zR - max zL zR) = 0 := by
    rw [hzz]; exact max_eq_left (by linarith)
  constructor
  · unfold hrTFluxCeed
    rw [if_pos (Or.inl hL)]
    refine (C48_tracer_dry_right_violated (g := P.g) .roe n _ _ sn cn ht ?_ ?_).1
    · change max 0 (qL.q.h + zL - max zL zR) > P.tinyH
      rw [eL]; exact hL
    · exact eR
  · unfold hrTFlux
    have dL : (hrTState P zL (max zL zR) qL).p.h = qL.q.h := eL
    have dR : (hrTState P zR (max zL zR) qR).p.h = 0 := eR
    rw [dL, dR, if_pos (Or.inl hL)]
    unfold tracerFlux
    rw [dL, dR, if_pos ⟨by linarith, le_refl 0, by linarith⟩]
    cases sv <;> rfl

example : hrTFluxCeed exParams 1 5 0 ⟨⟨1, 1, 0⟩, fun _ => 1⟩ ⟨⟨2, 0, 0⟩, fun _ => 1⟩ 0 1 = none :=
  (C83_waterfall_violated (P := exParams) .roe 1 0 1 (by norm_num [exParams]) (by norm_num [exParams])
    (by norm_num) (by norm_num)).1

/-- C83 (disagreement). The CEED kernel ignores the solver of the configuration: with `upwind` asked for, where
PETSc moves tracer with the concentration of the water that flows, CEED computes the Roe flux. Here the left
cell is clean and deep, the right one (depth 1/4) has concentration 1, and water flows to the right: CEED moves
tracer out of the clean cell. -/
theorem C83_solver_violated (sv : TSolver) (hsv : sv = .upwind) :
    ∃ F F', hrTFluxCeed ⟨2, 1e-7, 0, 0⟩ 1 0 0 ⟨⟨1, 0, 0⟩, fun _ => 0⟩ ⟨⟨1 / 4, 0, 0⟩, fun _ => 1 / 4⟩ 0 1 =
        some F ∧
      hrTFlux sv ⟨2, 1e-7, 0, 0⟩ 1 (hrTState ⟨2, 1e-7, 0, 0⟩ 0 (max 0 0) ⟨⟨1, 0, 0⟩, fun _ => 0⟩)
        (hrTState ⟨2, 1e-7, 0, 0⟩ 0 (max 0 0) ⟨⟨1 / 4, 0, 0⟩, fun _ => 1 / 4⟩) 0 1 = some F' ∧
      0 < F' 0 ∧ F' 3 = 0 ∧ 0 < F 3 := by
  subst hsv
  rw [C83_ceed_partial (P := ⟨2, 1e-7, 0, 0⟩) 1 0 0 _ _ 0 1 (by norm_num) (by norm_num) (by norm_num)
    (by norm_num) (by norm_num)]
  have sL : hrTState ⟨2, 1e-7, 0, 0⟩ 0 (max 0 0) ⟨⟨1, 0, 0⟩, fun _ => 0⟩ = ⟨⟨1, 0, 0⟩, fun _ => 0⟩ := by
    unfold hrTState hrState
    norm_num
  have sR : hrTState ⟨2, 1e-7, 0, 0⟩ 0 (max 0 0) ⟨⟨1 / 4, 0, 0⟩, fun _ => 1 / 4⟩ =
      ⟨⟨1 / 4, 0, 0⟩, fun _ => 1⟩ := by
    unfold hrTState hrState
    norm_num
  rw [sL, sR]
  have hd : RoeDefined (1 : ℝ) (1 / 4) := ⟨by norm_num, by norm_num, by norm_num⟩
  have h4 : √(1 / 4 : ℝ) = 1 / 2 := by
    rw [show (1 / 4 : ℝ) = (1 / 2) ^ 2 by norm_num, Real.sqrt_sq (by norm_num)]
  have hch : tracerChat ⟨⟨1, 0, 0⟩, fun _ => 0⟩ ⟨⟨1 / 4, 0, 0⟩, fun _ => 1⟩ 0 = 1 / 3 := by
    unfold tracerChat roeAvg
    rw [h4, Real.sqrt_one]
    norm_num
  have hup : uperp (roeAvg 1 (1 / 4) 0 0) (roeAvg 1 (1 / 4) 0 0) 0 1 = 0 := by norm_num [uperp, roeAvg]
  have hcpos : 0 < roeC 2 1 (1 / 4) := by
    unfold roeC
    apply Real.sqrt_pos.mpr
    norm_num
  have a1 : 0 < (roeEig 2 ⟨1, 0, 0⟩ ⟨1 / 4, 0, 0⟩ 0 1).a1 := by
    refine lt_of_lt_of_le ?_ (entropyFix_ge (abs_nonneg _))
    simp only [hup, zero_sub, abs_neg]
    exact abs_pos.mpr (ne_of_gt hcpos)
  have a3 : 0 < (roeEig 2 ⟨1, 0, 0⟩ ⟨1 / 4, 0, 0⟩ 0 1).a3 := by
    refine lt_of_lt_of_le ?_ (entropyFix_ge (abs_nonneg _))
    simp only [hup, zero_add]
    exact abs_pos.mpr (ne_of_gt hcpos)
  have w1 : (roeEig 2 ⟨1, 0, 0⟩ ⟨1 / 4, 0, 0⟩ 0 1).w1 = -(3 / 8) := by norm_num [roeEig, uperp]
  have w3 : (roeEig 2 ⟨1, 0, 0⟩ ⟨1 / 4, 0, 0⟩ 0 1).w3 = -(3 / 8) := by norm_num [roeEig, uperp]
  have a2 : (roeEig 2 ⟨1, 0, 0⟩ ⟨1 / 4, 0, 0⟩ 0 1).a2 = 0 := by
    simp only [roeEig, hup, abs_zero]
  unfold hrTFlux tracerFlux
  simp only [if_pos hd]
  rw [if_pos (Or.inl (by norm_num)), if_pos (Or.inl (by norm_num))]
  have hm : 0 < upwindCombine 2 ⟨⟨1, 0, 0⟩, fun _ => 0⟩ ⟨⟨1 / 4, 0, 0⟩, fun _ => 1⟩
      (roeEig 2 ⟨1, 0, 0⟩ ⟨1 / 4, 0, 0⟩ 0 1) 0 1 0 := by
    rw [upwindCombine_zero, roe_mass, w1, w3]
    simp only [uperp]
    linarith
  refine ⟨_, _, rfl, rfl, hm, ?_, ?_⟩
  · refine (upwindCombine_tracer (j := 0) ..).trans ?_
    rw [if_pos (le_of_lt hm), mul_zero]
  · refine lt_of_lt_of_eq ?_ (tracerCombine_tracer (j := 0) 2 _ _ _ 0 1 (by norm_num)).symm
    rw [hch, w1, w3, a2]
    simp only [uperp]
    linarith

end RDy
