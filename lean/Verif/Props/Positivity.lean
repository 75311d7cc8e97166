import Verif.Props.Decomposition

/-!
C74: water depths stay non-negative: a dry cell never loses water, whatever the time step; water at rest
stays non-negative below a bound on the Courant number; for moving water no bound on the Courant number is
enough.
-/

namespace RDy

open Finset

/-! ### Fluxes -/

theorem loses_dry_left {g : ℝ} {L R : Prim} {sn cn : ℝ} {F : Flux} {a : ℝ} (hL : L.h = 0)
    (h : roeFlux g L R sn cn = some (F, a)) : F.m ≤ 0 := by
  unfold roeFlux at h
  by_cases hd : RoeDefined L.h R.h
  · rw [if_pos hd] at h
    simp only [Option.some.injEq, Prod.mk.injEq] at h
    rw [← h.1]
    obtain ⟨-, hR, hs⟩ := hd
    rw [hL, zero_add] at hs
    have hsq : 0 < √R.h := Real.sqrt_pos.mpr hs
    have havg : ∀ x y, roeAvg 0 R.h x y = y := by
      intro x y
      unfold roeAvg
      rw [Real.sqrt_zero]
      field_simp
      ring
    simp only [roeCombine, sideFlux, roeEig, hL, havg, Real.sqrt_zero, zero_mul, zero_div, sub_zero, add_zero,
      mul_zero, zero_add, one_mul]
    have k1 := entropyFix_ge (da := max 0 (2 * (uperp R.u R.v sn cn - √(g * R.h) - uperp L.u L.v sn cn)))
      (abs_nonneg (uperp R.u R.v sn cn - roeC g 0 R.h))
    have k3 := entropyFix_ge (da := max 0 (2 * (uperp R.u R.v sn cn + √(g * R.h) - uperp L.u L.v sn cn)))
      (abs_nonneg (uperp R.u R.v sn cn + roeC g 0 R.h))
    have l1 := le_abs_self (uperp R.u R.v sn cn - roeC g 0 R.h)
    have l3 := le_abs_self (uperp R.u R.v sn cn + roeC g 0 R.h)
    generalize entropyFix |uperp R.u R.v sn cn - roeC g 0 R.h|
      (max 0 (2 * (uperp R.u R.v sn cn - √(g * R.h) - uperp L.u L.v sn cn))) = a1 at *
    generalize entropyFix |uperp R.u R.v sn cn + roeC g 0 R.h|
      (max 0 (2 * (uperp R.u R.v sn cn + √(g * R.h) - uperp L.u L.v sn cn))) = a3 at *
    have : uperp R.u R.v sn cn * 2 ≤ a1 + a3 := by linarith
    nlinarith only [this, hs]
  · rw [if_neg hd] at h
    simp at h

theorem loses_dry_right {g : ℝ} {L R : Prim} {sn cn : ℝ} {F : Flux} {a : ℝ} (hR : R.h = 0)
    (h : roeFlux g L R sn cn = some (F, a)) : 0 ≤ F.m := by
  have e := C37_antisymmetric g L R cn sn
  rw [h] at e
  have := loses_dry_left hR e
  simp only [Flux.opp] at this
  linarith

/-- Water at rest: the water lost through an edge is at most the wave speed times the depth. -/
theorem roe_rest_left {g : ℝ} {hl hr sn cn : ℝ} {F : Flux} {a : ℝ} (hg : 0 < g)
    (h : roeFlux g ⟨hl, 0, 0⟩ ⟨hr, 0, 0⟩ sn cn = some (F, a)) : F.m ≤ roeC g hl hr * hl := by
  unfold roeFlux at h
  simp only at h
  by_cases hd : RoeDefined hl hr
  · rw [if_pos hd] at h
    simp only [Option.some.injEq, Prod.mk.injEq] at h
    rw [← h.1]
    have hc := roeC_pos hg hd
    have hc2 := roeC_sq hg hd
    have havg : roeAvg hl hr 0 0 = 0 := by simp [roeAvg]
    have hu : ∀ s c, uperp 0 0 s c = 0 := by intro s c; simp [uperp]
    simp only [roeCombine, sideFlux, roeEig, havg, hu, sub_zero, zero_add, zero_sub, mul_zero,
      zero_div, add_zero, zero_mul, one_mul, abs_neg, abs_of_pos hc]
    have e1 : (2 * (-√(g * hr) - -√(g * hl))) = 2 * (√(g * hl) - √(g * hr)) := by ring
    rw [e1]
    obtain ⟨hl0, hr0, -⟩ := hd
    have s1 : √(g * hl) ^ 2 = g * hl := Real.sq_sqrt (by positivity)
    have n1 := Real.sqrt_nonneg (g * hl)
    have n2 := Real.sqrt_nonneg (g * hr)
    have p1 := entropyFix_nonneg (da := max 0 (2 * (√(g * hl) - √(g * hr)))) (le_of_lt hc)
    have p3 := entropyFix_nonneg (da := max 0 (2 * (√(g * hr) - √(g * hl)))) (le_of_lt hc)
    by_cases hle : hr ≤ hl
    · have hsl : √(g * hr) ≤ √(g * hl) := Real.sqrt_le_sqrt (mul_le_mul_of_nonneg_left hle (le_of_lt hg))
      have f3 : entropyFix (roeC g hl hr) (max 0 (2 * (√(g * hr) - √(g * hl)))) = roeC g hl hr :=
        entropyFix_of_le (by rw [max_eq_left (by linarith)]; exact le_of_lt hc)
      have hda : max 0 (2 * (√(g * hl) - √(g * hr))) ≤ 3 * roeC g hl hr := by
        rw [max_eq_right (by linarith)]
        have : √(g * hl) ≤ 3 / 2 * roeC g hl hr := by
          apply le_of_sq_le_sq' _ (by positivity)
          have : (3 / 2 * roeC g hl hr) ^ 2 = 9 / 4 * (roeC g hl hr * roeC g hl hr) := by ring
          rw [s1, this, hc2]
          nlinarith only [mul_nonneg (le_of_lt hg) hr0, mul_nonneg (le_of_lt hg) hl0]
        linarith
      have f1 : entropyFix (roeC g hl hr) (max 0 (2 * (√(g * hl) - √(g * hr)))) ≤ 3 * roeC g hl hr := by
        unfold entropyFix
        generalize max 0 (2 * (√(g * hl) - √(g * hr))) = d at *
        by_cases hx : roeC g hl hr < d
        · rw [if_pos hx]
          have hd0 : 0 < d := lt_trans hc hx
          have : roeC g hl hr * roeC g hl hr / d ≤ roeC g hl hr := by
            rw [div_le_iff₀ hd0]
            nlinarith only [hx, hc]
          norm_num
          linarith
        · rw [if_neg hx]
          linarith
      rw [f3]
      generalize entropyFix (roeC g hl hr) (max 0 (2 * (√(g * hl) - √(g * hr)))) = a1 at *
      generalize roeC g hl hr = c at *
      have hdiff : 0 ≤ hl - hr := by linarith
      norm_num
      nlinarith only [mul_nonneg hdiff (sub_nonneg.mpr f1), mul_nonneg (le_of_lt hc) hr0]
    · push Not at hle
      have hc0 := mul_nonneg (le_of_lt hc) hl0
      generalize entropyFix (roeC g hl hr) (max 0 (2 * (√(g * hl) - √(g * hr)))) = a1 at *
      generalize entropyFix (roeC g hl hr) (max 0 (2 * (√(g * hr) - √(g * hl)))) = a3 at *
      have hdiff : 0 ≤ hr - hl := by linarith
      norm_num
      nlinarith only [mul_nonneg hdiff p1, mul_nonneg hdiff p3, hc0]
  · rw [if_neg hd] at h
    simp at h

theorem roe_rest_right {g : ℝ} {hl hr sn cn : ℝ} {F : Flux} {a : ℝ} (hg : 0 < g)
    (h : roeFlux g ⟨hl, 0, 0⟩ ⟨hr, 0, 0⟩ sn cn = some (F, a)) : -(roeC g hl hr * hr) ≤ F.m := by
  have e := C37_antisymmetric g ⟨hl, 0, 0⟩ ⟨hr, 0, 0⟩ cn sn
  rw [h] at e
  have := roe_rest_left hg e
  rw [roeC_comm] at this
  simp only [Flux.opp] at this
  linarith

theorem used_dry_left {g tinyH : ℝ} {L R : Prim} {sn cn : ℝ} {F : Flux} (hL : L.h = 0)
    (h : usedFlux g tinyH L R sn cn = some F) : F.m ≤ 0 := by
  unfold usedFlux at h
  by_cases hd : ¬ (R.h < tinyH ∧ L.h < tinyH)
  · rw [if_pos hd, Option.map_eq_some_iff] at h
    obtain ⟨⟨F', a⟩, h1, rfl⟩ := h
    exact loses_dry_left hL h1
  · rw [if_neg hd] at h
    simp only [Option.some.injEq] at h
    rw [← h]

theorem used_dry_right {g tinyH : ℝ} {L R : Prim} {sn cn : ℝ} {F : Flux} (hR : R.h = 0)
    (h : usedFlux g tinyH L R sn cn = some F) : 0 ≤ F.m := by
  unfold usedFlux at h
  by_cases hd : ¬ (R.h < tinyH ∧ L.h < tinyH)
  · rw [if_pos hd, Option.map_eq_some_iff] at h
    obtain ⟨⟨F', a⟩, h1, rfl⟩ := h
    exact loses_dry_right hR h1
  · rw [if_neg hd] at h
    simp only [Option.some.injEq] at h
    rw [← h]

theorem hrState_h_le {P : FlowParams} {z zmax : ℝ} {q : Cons} (hz : z ≤ zmax) (hq : 0 ≤ q.h) :
    0 ≤ (hrState P z zmax q).h ∧ (hrState P z zmax q).h ≤ q.h := by
  simp only [hrState]
  exact ⟨le_max_left _ _, max_le hq (by linarith)⟩

/-- the mass parts of the two entries of a reconstructed edge are that of its Roe flux -/
theorem hrPair_mass {P : FlowParams} {zL zR : ℝ} {qL qR : Cons} {sn cn : ℝ} {pr : Flux × Flux}
    (h : hrPairPetsc P zL zR qL qR sn cn = some pr) :
    (pr.1.m = 0 ∧ pr.2.m = 0) ∨ ∃ F a, roeFlux P.g (hrState P zL (max zL zR) qL)
      (hrState P zR (max zL zR) qR) sn cn = some (F, a) ∧ pr.1.m = F.m ∧ pr.2.m = F.m := by
  unfold hrPairPetsc at h
  by_cases hd : qR.h < P.tinyH ∧ qL.h < P.tinyH
  · rw [if_pos hd] at h
    simp only [Option.some.injEq] at h
    left; rw [← h]; exact ⟨rfl, rfl⟩
  · rw [if_neg hd, Option.map_eq_some_iff] at h
    obtain ⟨F, h1, rfl⟩ := h
    unfold hrFlux at h1
    split at h1
    · rw [Option.map_eq_some_iff] at h1
      obtain ⟨⟨F', a⟩, h2, rfl⟩ := h1
      right
      exact ⟨F', a, h2, by simp [Flux.add, hrCorrection], by simp [Flux.add, hrCorrection]⟩
    · simp only [Option.some.injEq] at h1
      left; rw [← h1]; simp [Flux.add, hrCorrection]

theorem facePair_dry {P : FlowParams} {hr : Bool} {zL zR : ℝ} {qL qR : Cons} {sn cn : ℝ}
    {pr : Flux × Flux} (h : facePair P hr zL zR qL qR sn cn = some pr) :
    (qL.h = 0 → pr.1.m ≤ 0) ∧ (qR.h = 0 → 0 ≤ pr.2.m) := by
  unfold facePair at h
  cases hr with
  | false =>
    simp only [Bool.false_eq_true, if_false, Option.map_eq_some_iff] at h
    obtain ⟨F, h1, rfl⟩ := h
    exact ⟨fun hq => used_dry_left (by rw [velocities_h, hq]) h1,
      fun hq => used_dry_right (by rw [velocities_h, hq]) h1⟩
  | true =>
    simp only [if_true] at h
    rcases hrPair_mass h with ⟨h1, h2⟩ | ⟨F, a, h1, h2, h3⟩
    · rw [h1, h2]; exact ⟨fun _ => le_refl 0, fun _ => le_refl 0⟩
    · rw [h2, h3]
      constructor
      · intro hq
        have := hrState_h_le (P := P) (le_max_left zL zR) (le_of_eq hq.symm)
        exact loses_dry_left (by linarith [this.1, this.2]) h1
      · intro hq
        have := hrState_h_le (P := P) (le_max_right zL zR) (le_of_eq hq.symm)
        exact loses_dry_right (by linarith [this.1, this.2]) h1

theorem bndFlux_dry {P : FlowParams} {U : ℕ → Cons} {e : BEdge}
    (hq : (U e.cell).h = 0) : (bndFlux P U e).m ≤ 0 := by
  unfold bndFlux
  cases h : usedFlux P.g P.tinyH (boundaryStates P.g P.tinyH P.hAnuga e.bc (U e.cell) e.sn e.cn).1
      (boundaryStates P.g P.tinyH P.hAnuga e.bc (U e.cell) e.sn e.cn).2 e.sn e.cn with
  | none => simp [Flux.zero]
  | some F =>
    refine used_dry_left ?_ h
    have hv := velocities_h P.tinyH P.hAnuga (U e.cell)
    cases e.bc with
    | dirichlet q => simp only [boundaryStates, hv, hq]
    | reflecting => simp only [boundaryStates, hv, hq]
    | outflow =>
      simp only [boundaryStates, outflowStates]
      split
      · rfl
      · simp only [hv, hq]

/-! ### A dry cell -/

theorem list_sum_nonneg {α : Type} {l : List α} {f : α → ℝ} (h : ∀ e ∈ l, 0 ≤ f e) :
    0 ≤ (l.map f).sum := by
  apply List.sum_nonneg
  intro x hx
  obtain ⟨e, he, rfl⟩ := List.mem_map.mp hx
  exact h e he

/-- C74. A cell without water does not lose any: whatever the time step, the division of the mesh among
processes, the state of the other cells and the boundary conditions, its depth after a step is
non-negative, provided that its external water source is. -/
theorem C74_dry_cell {Q : GProblem} {P : FlowParams} {m : FrictionMethod} {hr : Bool} {n : ℕ}
    {pm : Fin n → PMesh} {gid : Fin n → ℕ → ℕ} {owner : ℕ → Fin n} {seen : Fin n → GEdge → Bool}
    {src : Fin n → ℕ → Flux} {mann : Fin n → ℕ → ℝ} {dt : ℝ}
    (hp : Partitioned n pm gid owner Q.edges seen) (hD : Divides Q pm gid owner src mann)
    {U U' : ℕ → Cons} (h : EulerStep P m hr pm gid dt src mann U U') (hdt : 0 ≤ dt)
    (hle : ∀ e ∈ Q.edges, 0 ≤ e.len) (hlb : ∀ e ∈ Q.bedges, 0 ≤ e.len)
    {γ : ℕ} (hγ : γ < Q.N) (ha : 0 < Q.area γ) (hs : 0 ≤ (Q.src γ).m) (hdry : (U γ).h = 0) :
    0 ≤ (U' γ).h := by
  obtain ⟨hF, hU⟩ := (euler_iff hp hD U U').mp h
  obtain ⟨F, hF', hm, -⟩ := hU γ hγ
  unfold GProblem.rhs at hF'
  rw [Option.map_eq_some_iff] at hF'
  obtain ⟨t, -, rfl⟩ := hF'
  rw [hm, hdry, zero_add]
  apply mul_nonneg hdt
  simp only
  apply add_nonneg _ hs
  unfold GProblem.div
  apply add_nonneg <;> apply list_sum_nonneg
  · intro e he
    obtain ⟨pr, hpr⟩ := Option.isSome_iff_exists.mp (hF.1 e he)
    have hl := hle e he
    have hq : 0 ≤ e.len / Q.area γ := by positivity
    unfold GProblem.pair at hpr
    obtain ⟨d1, d2⟩ := facePair_dry hpr
    unfold GProblem.edgeTerm GProblem.pair
    rw [hpr]
    simp only [Option.getD_some]
    apply add_nonneg
    · by_cases hc : e.c1 = γ
      · rw [if_pos hc, neg_div]
        have := d1 (by rw [hc]; exact hdry)
        nlinarith only [this, hq]
      · rw [if_neg hc]
    · by_cases hc : e.c2 = γ
      · rw [if_pos hc]
        exact mul_nonneg (d2 (by rw [hc]; exact hdry)) hq
      · rw [if_neg hc]
  · intro e he
    have hl := hlb e he
    have hq : 0 ≤ e.len / Q.area γ := by positivity
    unfold GProblem.bndTerm
    by_cases hc : e.cell = γ
    · rw [if_pos hc, neg_div]
      have := bndFlux_dry (P := P) (U := U) (e := e) (by rw [hc]; exact hdry)
      nlinarith only [this, hq]
    · rw [if_neg hc]

/-- From every state with non-negative depths the example mesh, on two processes, takes a step. -/
theorem exStep_exists (m : FrictionMethod) (hr : Bool) {dt : ℝ} (hdt : 0 ≤ dt) {U : ℕ → Cons}
    (hU : ∀ c, 0 ≤ (U c).h) :
    ∃ U', EulerStep exParams m hr exMesh exGid dt (fun p _ => exProblem.src p)
      (fun p _ => exProblem.mann p) U U' := by
  obtain ⟨f, hf⟩ := Option.isSome_iff_exists.mp (C39_rhs_defined (P := exParams) m hr exWhole
    (dt := dt) (fun c => exProblem.src c) (fun c => exProblem.mann c) (u := U) (by norm_num [exParams])
    (by norm_num [exParams]) (by norm_num [exParams]) hdt hU (by
      intro e he qb hq
      simp only [exWhole, List.mem_cons, List.not_mem_nil, or_false] at he
      rcases he with rfl | rfl <;> simp at hq))
  refine ⟨fun c => ⟨(U c).h + dt * (f c).m, (U c).hu + dt * (f c).x, (U c).hv + dt * (f c).y⟩, ?_⟩
  rw [euler_iff exPartitioned exDivides2, ← euler_iff exPartitioned1 exDivides1]
  exact fun _ => ⟨f, hf, fun c _ _ => ⟨rfl, rfl, rfl⟩⟩

theorem exLens : (∀ e ∈ exProblem.edges, 0 ≤ e.len) ∧ ∀ e ∈ exProblem.bedges, 0 ≤ e.len := by
  constructor <;> intro e he <;> simp only [exProblem, List.mem_cons, List.not_mem_nil, or_false] at he
  · rw [he]; norm_num
  · rcases he with rfl | rfl <;> norm_num

/-- the cells of the two-process mesh, the first dry, the second filled with water rushing away from it, and
a step of 100 s -/
example (m : FrictionMethod) (hr : Bool) :
    ∃ U', EulerStep exParams m hr exMesh exGid 100 (fun p _ => exProblem.src p)
        (fun p _ => exProblem.mann p) (fun c => if c = 0 then ⟨0, 0, 0⟩ else ⟨1, 50, 0⟩) U' ∧
      0 ≤ (U' 0).h := by
  obtain ⟨U', h⟩ := exStep_exists m hr (dt := 100) (by norm_num)
    (U := fun c => if c = 0 then ⟨0, 0, 0⟩ else ⟨1, 50, 0⟩) (by intro c; by_cases h : c = 0 <;> simp [h])
  exact ⟨U', h, C74_dry_cell exPartitioned exDivides2 h (by norm_num) exLens.1 exLens.2 (γ := 0)
    (by norm_num [exProblem]) (by norm_num [exProblem]) (by norm_num [exProblem]) rfl⟩

/-! ### Water at rest -/

theorem velocities_rest (tinyH hAnuga h : ℝ) : velocities tinyH hAnuga ⟨h, 0, 0⟩ = ⟨h, 0, 0⟩ := by
  unfold velocities
  by_cases hh : h < tinyH <;> simp [hh]

theorem roeC_mono {g a b a' b' : ℝ} (hg : 0 < g) (ha : a ≤ a') (hb : b ≤ b') :
    roeC g a b ≤ roeC g a' b' := by
  unfold roeC
  apply Real.sqrt_le_sqrt
  have : a + b ≤ a' + b' := by linarith
  have : (0 : ℝ) < 0.5 * g := by norm_num; exact hg
  nlinarith

theorem used_rest {g tinyH hl hr : ℝ} {sn cn : ℝ} {F : Flux} (hg : 0 < g) (h0 : 0 ≤ hl) (h1 : 0 ≤ hr)
    (h : usedFlux g tinyH ⟨hl, 0, 0⟩ ⟨hr, 0, 0⟩ sn cn = some F) :
    F.m ≤ roeC g hl hr * hl ∧ -(roeC g hl hr * hr) ≤ F.m := by
  unfold usedFlux at h
  split at h
  · rw [Option.map_eq_some_iff] at h
    obtain ⟨⟨F', a⟩, h2, rfl⟩ := h
    exact ⟨roe_rest_left hg h2, roe_rest_right hg h2⟩
  · simp only [Option.some.injEq] at h
    rw [← h]
    have : 0 ≤ roeC g hl hr := Real.sqrt_nonneg _
    simp only
    constructor
    · positivity
    · have : 0 ≤ roeC g hl hr * hr := by positivity
      linarith

theorem facePair_rest {P : FlowParams} {hr : Bool} {zL zR hL hR : ℝ} {sn cn : ℝ}
    {pr : Flux × Flux} (hg : 0 < P.g) (h0 : 0 ≤ hL) (h1 : 0 ≤ hR)
    (h : facePair P hr zL zR ⟨hL, 0, 0⟩ ⟨hR, 0, 0⟩ sn cn = some pr) :
    pr.1.m ≤ roeC P.g hL hR * hL ∧ -(roeC P.g hL hR * hR) ≤ pr.2.m := by
  have hc0 : 0 ≤ roeC P.g hL hR := Real.sqrt_nonneg _
  unfold facePair at h
  cases hr with
  | false =>
    simp only [Bool.false_eq_true, if_false, Option.map_eq_some_iff, velocities_rest] at h
    obtain ⟨F, h2, rfl⟩ := h
    exact used_rest hg h0 h1 h2
  | true =>
    simp only [if_true] at h
    rcases hrPair_mass h with ⟨h2, h3⟩ | ⟨F, a, h2, h3, h4⟩
    · rw [h2, h3]
      have := mul_nonneg hc0 h0
      have := mul_nonneg hc0 h1
      exact ⟨by linarith, by linarith⟩
    · rw [h3, h4]
      have e : ∀ z zm h, hrState P z zm ⟨h, 0, 0⟩ = ⟨(hrState P z zm ⟨h, 0, 0⟩).h, 0, 0⟩ := by
        intro z zm h
        simp [hrState]
      have bL := hrState_h_le (P := P) (q := ⟨hL, 0, 0⟩) (le_max_left zL zR) h0
      have bR := hrState_h_le (P := P) (q := ⟨hR, 0, 0⟩) (le_max_right zL zR) h1
      rw [e zL, e zR] at h2
      have k1 := roe_rest_left hg h2
      have k2 := roe_rest_right hg h2
      have hm := roeC_mono hg bL.2 bR.2
      simp only at hm
      generalize (hrState P zL (max zL zR) ⟨hL, 0, 0⟩).h = x at *
      generalize (hrState P zR (max zL zR) ⟨hR, 0, 0⟩).h = y at *
      have : roeC P.g x y * x ≤ roeC P.g hL hR * hL := mul_le_mul hm bL.2 bL.1 hc0
      have : roeC P.g x y * y ≤ roeC P.g hL hR * hR := mul_le_mul hm bR.2 bR.1 hc0
      exact ⟨by linarith, by linarith⟩

/-- the depth outside a boundary edge, for water at rest: that of the Dirichlet data, that of the cell at a
wall, none at an outflow -/
def restDepth (bc : BCond) (h : ℝ) : ℝ :=
  match bc with
  | .dirichlet q => q.h
  | .reflecting => h
  | .outflow => 0

theorem bndFlux_rest {P : FlowParams} {U : ℕ → Cons} {e : BEdge} (hg : 0 < P.g) (hu : (U e.cell).hu = 0)
    (hv : (U e.cell).hv = 0) (hh : 0 ≤ (U e.cell).h)
    (hb : ∀ q, e.bc = .dirichlet q → q.hu = 0 ∧ q.hv = 0 ∧ 0 ≤ q.h) :
    (bndFlux P U e).m ≤ roeC P.g (U e.cell).h (restDepth e.bc (U e.cell).h) * (U e.cell).h := by
  unfold bndFlux
  generalize U e.cell = q at *
  obtain ⟨h, qu, qv⟩ := q
  simp only at hu hv hh
  subst hu hv
  have hc0 : 0 ≤ roeC P.g h (restDepth e.bc h) := Real.sqrt_nonneg _
  generalize hS : boundaryStates P.g P.tinyH P.hAnuga e.bc ⟨h, 0, 0⟩ e.sn e.cn = S
  have hS' : S = (⟨h, 0, 0⟩, ⟨restDepth e.bc h, 0, 0⟩) := by
    rw [← hS]
    cases hbc : e.bc with
    | dirichlet q =>
      obtain ⟨a, b, c⟩ := hb q hbc
      obtain ⟨qh, qu, qv⟩ := q
      simp only at a b
      subst a b
      simp only [boundaryStates, velocities_rest, restDepth]
    | reflecting => simp [boundaryStates, velocities_rest, restDepth, reflectRight]
    | outflow =>
      simp only [boundaryStates, velocities_rest, restDepth, outflowStates, uperp]
      norm_num
  have hr0 : 0 ≤ restDepth e.bc h := by
    cases hbc : e.bc with
    | dirichlet q => exact (hb q hbc).2.2
    | reflecting => exact hh
    | outflow => exact le_refl 0
  rw [hS']
  simp only
  cases hF : usedFlux P.g P.tinyH ⟨h, 0, 0⟩ ⟨restDepth e.bc h, 0, 0⟩ e.sn e.cn with
  | none =>
    simp only [Option.getD_none, Flux.zero]
    positivity
  | some F => exact (used_rest hg hh hr0 hF).1

theorem list_sum_ge {α : Type} (l : List α) (f : α → ℝ) (p : α → Bool) (x : ℝ)
    (h : ∀ e ∈ l, -(if p e then x else 0) ≤ f e) : -((l.filter p).length * x) ≤ (l.map f).sum := by
  induction l with
  | nil => simp
  | cons e l ih =>
    have h1 := h e (by simp)
    have h2 := ih (fun e' he' => h e' (by simp [he']))
    rw [List.map_cons, List.sum_cons, List.filter_cons]
    by_cases hp : p e
    · simp only [hp, if_true, List.length_cons] at *
      push_cast
      linarith
    · simp only [hp, if_false, Bool.false_eq_true] at *
      linarith

/-- the number of edges of a cell -/
noncomputable def GProblem.edgeCount (Q : GProblem) (γ : ℕ) : ℕ :=
  (Q.edges.filter fun e => decide (e.c1 = γ ∨ e.c2 = γ)).length +
    (Q.bedges.filter fun e => decide (e.cell = γ)).length

/-- C74 (part). Water at rest: if the Courant number of every edge of a cell (wave speed `√(g h)` for the
mean depth `h` of its two sides, times length and time step, over the area of the cell) is at most one
over the number of edges of the cell, its depth after a step is non-negative. Missing: water in motion,
for which no bound on the Courant number suffices (`C74_courant_violated`). -/
theorem C74_rest_partial {Q : GProblem} {P : FlowParams} {m : FrictionMethod} {hr : Bool} {n : ℕ}
    {pm : Fin n → PMesh} {gid : Fin n → ℕ → ℕ} {owner : ℕ → Fin n} {seen : Fin n → GEdge → Bool}
    {src : Fin n → ℕ → Flux} {mann : Fin n → ℕ → ℝ} {dt : ℝ}
    (hp : Partitioned n pm gid owner Q.edges seen) (hD : Divides Q pm gid owner src mann)
    {U U' : ℕ → Cons} (h : EulerStep P m hr pm gid dt src mann U U') (hg : 0 < P.g) (hdt : 0 ≤ dt)
    (hrest : ∀ c, (U c).hu = 0 ∧ (U c).hv = 0 ∧ 0 ≤ (U c).h)
    (hdir : ∀ e ∈ Q.bedges, ∀ q, e.bc = .dirichlet q → q.hu = 0 ∧ q.hv = 0 ∧ 0 ≤ q.h)
    (hle : ∀ e ∈ Q.edges, 0 ≤ e.len) (hlb : ∀ e ∈ Q.bedges, 0 ≤ e.len)
    (hne : ∀ e ∈ Q.edges, e.c1 ≠ e.c2)
    {γ : ℕ} (hγ : γ < Q.N) (ha : 0 < Q.area γ) (hs : 0 ≤ (Q.src γ).m)
    (hcI : ∀ e ∈ Q.edges, e.c1 = γ ∨ e.c2 = γ →
      √(P.g * (((U e.c1).h + (U e.c2).h) / 2)) * e.len / Q.area γ * dt ≤ 1 / Q.edgeCount γ)
    (hcB : ∀ e ∈ Q.bedges, e.cell = γ →
      √(P.g * (((U γ).h + restDepth e.bc (U γ).h) / 2)) * e.len / Q.area γ * dt ≤ 1 / Q.edgeCount γ) :
    0 ≤ (U' γ).h := by
  have hsp : ∀ a b, √(P.g * ((a + b) / 2)) = roeC P.g a b := by
    intro a b
    unfold roeC
    congr 1
    ring
  simp only [hsp] at hcI hcB
  have hz : ∀ c, U c = ⟨(U c).h, 0, 0⟩ := by
    intro c
    obtain ⟨a, b, -⟩ := hrest c
    generalize U c = q at *
    obtain ⟨x, y, z⟩ := q
    simp only at a b
    rw [a, b]
  obtain ⟨hF, hU⟩ := (euler_iff hp hD U U').mp h
  obtain ⟨F, hF', hm, -⟩ := hU γ hγ
  unfold GProblem.rhs at hF'
  rw [Option.map_eq_some_iff] at hF'
  obtain ⟨t, -, rfl⟩ := hF'
  rw [hm]
  simp only
  have hγ0 := (hrest γ).2.2
  have key : ∀ c len Fm : ℝ, 0 ≤ len → c * len / Q.area γ * dt ≤ 1 / Q.edgeCount γ → Fm ≤ c * (U γ).h →
      -(1 / Q.edgeCount γ * (U γ).h) ≤ dt * (Fm * (-len / Q.area γ)) := by
    intro c len Fm hl hc hf
    have h1 : c * len / Q.area γ * dt * (U γ).h ≤ 1 / Q.edgeCount γ * (U γ).h :=
      mul_le_mul_of_nonneg_right hc hγ0
    have h2 : 0 ≤ dt * (len / Q.area γ) := by positivity
    have h3 := mul_le_mul_of_nonneg_left hf h2
    have e1 : dt * (Fm * (-len / Q.area γ)) = -(dt * (len / Q.area γ) * Fm) := by ring
    have e2 : dt * (len / Q.area γ) * (c * (U γ).h) = c * len / Q.area γ * dt * (U γ).h := by ring
    rw [e1]
    linarith
  have hI := list_sum_ge Q.edges (fun e => dt * Q.edgeTerm P hr U γ Flux.m e)
    (fun e => decide (e.c1 = γ ∨ e.c2 = γ)) (1 / Q.edgeCount γ * (U γ).h) (by
      intro e he
      obtain ⟨pr, hpr⟩ := Option.isSome_iff_exists.mp (hF.1 e he)
      have hl := hle e he
      unfold GProblem.pair at hpr
      have hfr := hpr
      rw [hz e.c1, hz e.c2] at hfr
      obtain ⟨d1, d2⟩ := facePair_rest hg (hrest e.c1).2.2 (hrest e.c2).2.2 hfr
      unfold GProblem.edgeTerm GProblem.pair
      rw [hpr]
      simp only [Option.getD_some]
      by_cases hc : e.c1 = γ
      · have hc2 : ¬ e.c2 = γ := fun hx => hne e he (by rw [hc, hx])
        simp only [hc, hc2, if_true, if_false, true_or, decide_true, add_zero]
        have hx := hcI e he (Or.inl hc)
        rw [hc] at hx d1
        exact key _ _ _ hl hx d1
      · by_cases hc2 : e.c2 = γ
        · simp only [hc, hc2, if_true, if_false, or_true, decide_true, zero_add]
          have hx := hcI e he (Or.inr hc2)
          rw [hc2] at hx d2
          have := key _ _ (-pr.2.m) hl hx (by linarith)
          have e3 : dt * (-pr.2.m * (-e.len / Q.area γ)) = dt * (pr.2.m * (e.len / Q.area γ)) := by ring
          rw [e3] at this
          exact this
        · simp [hc, hc2])
  have hB := list_sum_ge Q.bedges (fun e => dt * Q.bndTerm P U γ Flux.m e)
    (fun e => decide (e.cell = γ)) (1 / Q.edgeCount γ * (U γ).h) (by
      intro e he
      have hl := hlb e he
      unfold GProblem.bndTerm
      by_cases hc : e.cell = γ
      · simp only [hc, if_true, decide_true]
        have hx := hcB e he hc
        have := bndFlux_rest (P := P) (U := U) (e := e) hg (hrest _).1 (hrest _).2.1 (hrest _).2.2
          (hdir e he)
        rw [hc] at this
        exact key _ _ _ hl hx this
      · simp [hc])
  rw [List.sum_map_mul_left] at hI hB
  have hsum : (Q.edgeCount γ : ℝ) * (1 / Q.edgeCount γ * (U γ).h) ≤ (U γ).h := by
    by_cases h0 : (Q.edgeCount γ : ℝ) = 0
    · rw [h0]; simpa using hγ0
    · rw [← mul_assoc, mul_one_div_cancel h0, one_mul]
  have hcnt : (Q.edgeCount γ : ℝ) = (Q.edges.filter fun e => decide (e.c1 = γ ∨ e.c2 = γ)).length +
    (Q.bedges.filter fun e => decide (e.cell = γ)).length := by
    unfold GProblem.edgeCount
    push_cast
    rfl
  generalize 1 / (Q.edgeCount γ : ℝ) * (U γ).h = x at *
  rw [hcnt] at hsum
  have hsrc := mul_nonneg hdt hs
  unfold GProblem.div
  rw [mul_add, mul_add]
  linarith only [hsum, hI, hB, hsrc]

/-- a dam break: 1 m beside 0.25 m of water at rest -/
example (m : FrictionMethod) (hr : Bool) :
    ∃ U', EulerStep exParams m hr exMesh exGid 0.05 (fun p _ => exProblem.src p)
        (fun p _ => exProblem.mann p) (fun c => if c = 0 then ⟨1, 0, 0⟩ else ⟨0.25, 0, 0⟩) U' ∧
      0 ≤ (U' 0).h := by
  have hU : ∀ c, ((fun c => if c = 0 then ⟨1, 0, 0⟩ else ⟨0.25, 0, 0⟩ : ℕ → Cons) c).hu = 0 ∧
      ((fun c => if c = 0 then ⟨1, 0, 0⟩ else ⟨0.25, 0, 0⟩ : ℕ → Cons) c).hv = 0 ∧
      0 ≤ ((fun c => if c = 0 then ⟨1, 0, 0⟩ else ⟨0.25, 0, 0⟩ : ℕ → Cons) c).h := by
    intro c
    by_cases h : c = 0 <;> norm_num [h]
  obtain ⟨U', h⟩ := exStep_exists m hr (dt := 0.05) (by norm_num) (fun c => (hU c).2.2)
  refine ⟨U', h, C74_rest_partial exPartitioned exDivides2 h (by norm_num [exParams]) (by norm_num) hU ?_
    exLens.1 exLens.2 ?_ (γ := 0) (by norm_num [exProblem]) (by norm_num [exProblem])
    (by norm_num [exProblem]) ?_ ?_⟩
  · intro e he q hq
    simp only [exProblem, List.mem_cons, List.not_mem_nil, or_false] at he
    rcases he with rfl | rfl <;> simp at hq
  · intro e he
    simp only [exProblem, List.mem_singleton] at he
    subst he
    norm_num
  · intro e he _
    have hc : exProblem.edgeCount 0 = 2 := by simp [GProblem.edgeCount, exProblem]
    simp only [exProblem, List.mem_singleton] at he
    subst he
    rw [hc]
    have : √(exParams.g * ((1 + 0.25) / 2)) ≤ 4 := by
      rw [Real.sqrt_le_left (by norm_num)]
      norm_num [exParams]
    norm_num [exProblem] at this ⊢
    linarith
  · intro e he hcell
    have hc : exProblem.edgeCount 0 = 2 := by simp [GProblem.edgeCount, exProblem]
    rw [hc]
    simp only [exProblem, List.mem_cons, List.not_mem_nil, or_false] at he
    rcases he with rfl | rfl
    · have : √(exParams.g * ((1 + 1) / 2)) ≤ 4 := by
        rw [Real.sqrt_le_left (by norm_num)]
        norm_num [exParams]
      norm_num [exProblem, restDepth] at this ⊢
      linarith
    · simp at hcell

/-! ### Water in motion -/

/-- the shallow layer that moves away: depth `1 / (2 g)` and velocity `M²`, beside a deep cell at rest -/
noncomputable def filmU (M : ℝ) (c : ℕ) : Cons :=
  if c = 0 then ⟨2 / 9.806 * (M ^ 2 - 1 / 4), 0, 0⟩ else ⟨1 / (2 * 9.806), M ^ 2 * (1 / (2 * 9.806)), 0⟩

theorem film_flux {M : ℝ} (hM : 100 ≤ M) {F : Flux} {a : ℝ}
    (h : roeFlux 9.806 ⟨2 / 9.806 * (M ^ 2 - 1 / 4), 0, 0⟩ ⟨1 / (2 * 9.806), M ^ 2, 0⟩ 0 1 =
      some (F, a)) :
    M ^ 2 * (M ^ 2 - 1 / 2) / (2 * 9.806) ≤ F.m ∧ a ≤ 2 * M := by
  have hM2 : 10000 ≤ M ^ 2 := by nlinarith
  have hhl : (0 : ℝ) < 2 / 9.806 * (M ^ 2 - 1 / 4) := by
    apply mul_pos <;> [norm_num; linarith]
  have hhr : (0 : ℝ) < 1 / (2 * 9.806) := by norm_num
  unfold roeFlux at h
  simp only at h
  rw [if_pos ⟨le_of_lt hhl, le_of_lt hhr, by linarith⟩] at h
  simp only [Option.some.injEq, Prod.mk.injEq] at h
  obtain ⟨h1, h2⟩ := h
  have hC : roeC 9.806 (2 / 9.806 * (M ^ 2 - 1 / 4)) (1 / (2 * 9.806)) = M := by
    unfold roeC
    rw [show (0.5 * 9.806 * (2 / 9.806 * (M ^ 2 - 1 / 4) + 1 / (2 * 9.806)) : ℝ) = M ^ 2 by ring,
      Real.sqrt_sq (by linarith)]
  have hA : √(9.806 * (1 / (2 * 9.806))) ≤ √(9.806 * (2 / 9.806 * (M ^ 2 - 1 / 4))) := by
    apply Real.sqrt_le_sqrt
    have e1 : (9.806 * (1 / (2 * 9.806)) : ℝ) = 1 / 2 := by norm_num
    have e2 : (9.806 * (2 / 9.806 * (M ^ 2 - 1 / 4)) : ℝ) = 2 * (M ^ 2 - 1 / 4) := by ring
    rw [e1, e2]
    linarith
  have sl : √(2 / 9.806 * (M ^ 2 - 1 / 4)) ^ 2 = 2 / 9.806 * (M ^ 2 - 1 / 4) :=
    Real.sq_sqrt (le_of_lt hhl)
  have sr : √(1 / (2 * 9.806) : ℝ) ^ 2 = 1 / (2 * 9.806) := Real.sq_sqrt (le_of_lt hhr)
  have pl := Real.sqrt_pos.mpr hhl
  have pr := Real.sqrt_pos.mpr hhr
  have hdl : (2 / 9.806 * (M ^ 2 - 1 / 4) : ℝ) = (2 * M ^ 2 - 1 / 2) / 9.806 := by ring
  have hdr : (1 / (2 * 9.806) : ℝ) = (1 / 2) / 9.806 := by norm_num
  -- product of the roots
  have hprod : √(2 / 9.806 * (M ^ 2 - 1 / 4)) * √(1 / (2 * 9.806) : ℝ) ≤ M / 9.806 := by
    apply le_of_sq_le_sq' _ (by positivity)
    rw [mul_pow, sl, sr]
    norm_num
    nlinarith only [hM2]
  -- the quotient of the roots
  have hquot : √(1 / (2 * 9.806) : ℝ) * M ≤ √(2 / 9.806 * (M ^ 2 - 1 / 4)) := by
    apply le_of_sq_le_sq' _ (le_of_lt pl)
    rw [mul_pow, sl, sr]
    norm_num
    linarith only [hM2]
  have hua : uperp (roeAvg (2 / 9.806 * (M ^ 2 - 1 / 4)) (1 / (2 * 9.806)) 0 (M ^ 2))
      (roeAvg (2 / 9.806 * (M ^ 2 - 1 / 4)) (1 / (2 * 9.806)) 0 0) 0 1 =
      √(1 / (2 * 9.806) : ℝ) * M ^ 2 / (√(2 / 9.806 * (M ^ 2 - 1 / 4)) + √(1 / (2 * 9.806) : ℝ)) := by
    simp [uperp, roeAvg]
  have hu0 : 0 ≤ √(1 / (2 * 9.806) : ℝ) * M ^ 2 /
      (√(2 / 9.806 * (M ^ 2 - 1 / 4)) + √(1 / (2 * 9.806) : ℝ)) := by positivity
  have hu1 : √(1 / (2 * 9.806) : ℝ) * M ^ 2 /
      (√(2 / 9.806 * (M ^ 2 - 1 / 4)) + √(1 / (2 * 9.806) : ℝ)) ≤ M := by
    rw [div_le_iff₀ (by positivity)]
    nlinarith only [hquot, pr, hM]
  constructor
  · rw [← h1]
    simp only [roeCombine, sideFlux, roeEig, hC, hua]
    have u1 : ∀ x y : ℝ, uperp x y 0 1 = x := by intro x y; simp [uperp]
    simp only [u1, sub_zero, zero_mul, zero_add, one_mul, zero_sub]
    have n3 := entropyFix_nonneg (da := max 0 (2 * (M ^ 2 + √(9.806 * (1 / (2 * 9.806))) -
        √(9.806 * (2 / 9.806 * (M ^ 2 - 1 / 4))))))
      (abs_nonneg (√(1 / (2 * 9.806) : ℝ) * M ^ 2 /
      (√(2 / 9.806 * (M ^ 2 - 1 / 4)) + √(1 / (2 * 9.806) : ℝ)) + M))
    have hda : 2 * M ^ 2 ≤ max 0 (2 * (M ^ 2 - √(9.806 * (1 / (2 * 9.806))) -
        -√(9.806 * (2 / 9.806 * (M ^ 2 - 1 / 4))))) := by
      apply le_trans _ (le_max_right _ _)
      linarith
    have n1 : M ^ 2 ≤ entropyFix |√(1 / (2 * 9.806) : ℝ) * M ^ 2 /
      (√(2 / 9.806 * (M ^ 2 - 1 / 4)) + √(1 / (2 * 9.806) : ℝ)) - M|
        (max 0 (2 * (M ^ 2 - √(9.806 * (1 / (2 * 9.806))) -
        -√(9.806 * (2 / 9.806 * (M ^ 2 - 1 / 4)))))) := by
      generalize max 0 (2 * (M ^ 2 - √(9.806 * (1 / (2 * 9.806))) -
        -√(9.806 * (2 / 9.806 * (M ^ 2 - 1 / 4))))) = d at *
      generalize |√(1 / (2 * 9.806) : ℝ) * M ^ 2 /
      (√(2 / 9.806 * (M ^ 2 - 1 / 4)) + √(1 / (2 * 9.806) : ℝ)) - M| = α at *
      unfold entropyFix
      by_cases hx : α < d
      · rw [if_pos hx]
        have : 0 ≤ α * α / d := div_nonneg (mul_self_nonneg _) (by linarith)
        norm_num
        linarith
      · rw [if_neg hx]
        push Not at hx
        linarith
    generalize entropyFix |√(1 / (2 * 9.806) : ℝ) * M ^ 2 /
      (√(2 / 9.806 * (M ^ 2 - 1 / 4)) + √(1 / (2 * 9.806) : ℝ)) - M|
        (max 0 (2 * (M ^ 2 - √(9.806 * (1 / (2 * 9.806))) -
        -√(9.806 * (2 / 9.806 * (M ^ 2 - 1 / 4)))))) = a1 at *
    generalize entropyFix |√(1 / (2 * 9.806) : ℝ) * M ^ 2 /
      (√(2 / 9.806 * (M ^ 2 - 1 / 4)) + √(1 / (2 * 9.806) : ℝ)) + M|
        (max 0 (2 * (M ^ 2 + √(9.806 * (1 / (2 * 9.806))) -
        √(9.806 * (2 / 9.806 * (M ^ 2 - 1 / 4)))))) = a3 at *
    have hS0 : 0 ≤ √(2 / 9.806 * (M ^ 2 - 1 / 4)) * √(1 / (2 * 9.806) : ℝ) := by positivity
    have hq : √(2 / 9.806 * (M ^ 2 - 1 / 4)) * √(1 / (2 * 9.806) : ℝ) * M ^ 2 / M =
        √(2 / 9.806 * (M ^ 2 - 1 / 4)) * √(1 / (2 * 9.806) : ℝ) * M := by
      field_simp
    rw [hq, hdl, hdr]
    rw [hdl, hdr] at hS0 hprod
    generalize √((2 * M ^ 2 - 1 / 2) / 9.806) * √((1 / 2) / 9.806 : ℝ) = S at *
    have hw1 : 0.5 * ((1 / 2) / 9.806 - (2 * M ^ 2 - 1 / 2) / 9.806 - S * M) ≤
        -((M ^ 2 - 1 / 2) / 9.806) := by
      have : 0 ≤ S * M := by positivity
      norm_num
      linarith
    have hw3 : 0.5 * ((1 / 2) / 9.806 - (2 * M ^ 2 - 1 / 2) / 9.806 + S * M) ≤ 0 := by
      have : S * M ≤ M / 9.806 * M := mul_le_mul_of_nonneg_right hprod (by linarith)
      have e : M / 9.806 * M = M ^ 2 / 9.806 := by ring
      rw [e] at this
      norm_num at this ⊢
      linarith
    generalize 0.5 * ((1 / 2) / 9.806 - (2 * M ^ 2 - 1 / 2) / 9.806 - S * M) = w1 at *
    generalize 0.5 * ((1 / 2) / 9.806 - (2 * M ^ 2 - 1 / 2) / 9.806 + S * M) = w3 at *
    have p3 : 0 ≤ -(a3 * w3) := by nlinarith only [n3, hw3]
    have hpos : 0 ≤ (M ^ 2 - 1 / 2) / 9.806 := by
      apply div_nonneg <;> [linarith; norm_num]
    have p1 : M ^ 2 * ((M ^ 2 - 1 / 2) / 9.806) ≤ -(a1 * w1) := by
      nlinarith only [n1, hw1, hpos, hM2]
    have pR : 0 ≤ M ^ 2 * ((1 / 2) / 9.806) := by positivity
    have e5 : M ^ 2 * (M ^ 2 - 1 / 2) / (2 * 9.806) = 0.5 * (M ^ 2 * ((M ^ 2 - 1 / 2) / 9.806)) := by
      ring
    rw [e5]
    apply mul_le_mul_of_nonneg_left _ (by norm_num)
    linarith only [p1, p3, pR]
  · rw [← h2]
    simp only [roeEig, hC, hua]
    rw [abs_of_nonneg hu0]
    linarith

theorem film_vel {M : ℝ} :
    velocities exParams.tinyH exParams.hAnuga (filmU M 0) = ⟨2 / 9.806 * (M ^ 2 - 1 / 4), 0, 0⟩ ∧
    velocities exParams.tinyH exParams.hAnuga (filmU M 1) = ⟨1 / (2 * 9.806), M ^ 2, 0⟩ := by
  constructor
  · exact velocities_rest _ _ _
  · simp only [filmU, one_ne_zero, if_false, velocities, exParams]
    rw [if_neg (by norm_num)]
    simp only [Prim.mk.injEq, true_and]
    constructor
    · field_simp
      ring
    · simp

/-- a wall: the wave speed is that of the depth -/
theorem wall_speed {g : ℝ} {q : Prim} {sn cn : ℝ} {F : Flux} {a : ℝ} (hq : 0 < q.h)
    (hn : cn ^ 2 + sn ^ 2 = 1) (h : roeFlux g q (reflectRight q sn cn) sn cn = some (F, a)) :
    a = √(g * q.h) := by
  obtain ⟨mh, mn, -⟩ := C38_mirror q hn
  unfold roeFlux at h
  rw [if_pos ⟨le_of_lt hq, by rw [mh]; exact le_of_lt hq, by rw [mh]; linarith⟩] at h
  simp only [Option.some.injEq, Prod.mk.injEq] at h
  rw [← h.2]
  simp only [roeEig]
  rw [mh]
  have hs := Real.sqrt_pos.mpr hq
  have : uperp (roeAvg q.h q.h q.u (reflectRight q sn cn).u) (roeAvg q.h q.h q.v (reflectRight q sn cn).v)
      sn cn = 0 := by
    have h2 : ∀ x y, roeAvg q.h q.h x y = (x + y) / 2 := by
      intro x y
      unfold roeAvg
      field_simp
      ring
    rw [h2, h2]
    unfold uperp
    linear_combination mn / 2
  rw [this, abs_zero, add_zero]
  unfold roeC
  congr 1
  ring

/-- a wall lets no water through -/
theorem wall_mass {P : FlowParams} {U : ℕ → Cons} {e : BEdge} (hg : 0 < P.g) (hq : 0 < (U e.cell).h)
    (hn : e.cn ^ 2 + e.sn ^ 2 = 1) (hb : e.bc = .reflecting) : (bndFlux P U e).m = 0 := by
  unfold bndFlux
  rw [hb]
  simp only [boundaryStates]
  unfold usedFlux
  by_cases hd : ¬ ((reflectRight (velocities P.tinyH P.hAnuga (U e.cell)) e.sn e.cn).h < P.tinyH ∧
      (velocities P.tinyH P.hAnuga (U e.cell)).h < P.tinyH)
  · rw [if_pos hd]
    obtain ⟨F, a, h1, h2, -⟩ := C38_reflecting (g := P.g) (velocities P.tinyH P.hAnuga (U e.cell)) hg
      (by rw [velocities_h]; exact hq) hn
    rw [h1]
    exact h2
  · rw [if_neg hd]
    rfl

/-- C74 (disagreement). However small the Courant number of every edge is required to be, there are a mesh of
two cells, a state with positive depths and a time step meeting the requirement, for which the step makes
the depth of a cell negative although rain falls on it; and from the new state no further step exists,
because the next right-hand side is undefined. The time step is admissible by every measure the code
reports. -/
theorem C74_courant_violated (m : FrictionMethod) {ε : ℝ} (hε : 0 < ε) :
    ∃ (dt : ℝ) (U U' : ℕ → Cons), 0 < dt ∧ (∀ c, 0 < (U c).h) ∧
      (∀ e ∈ exProblem.edges, ∀ F a, roeFlux exParams.g
        (velocities exParams.tinyH exParams.hAnuga (U e.c1))
        (velocities exParams.tinyH exParams.hAnuga (U e.c2)) e.sn e.cn = some (F, a) →
        a * e.len / min (exProblem.area e.c1) (exProblem.area e.c2) * dt < ε) ∧
      (∀ e ∈ exProblem.bedges, ∀ F a, roeFlux exParams.g
        (boundaryStates exParams.g exParams.tinyH exParams.hAnuga e.bc (U e.cell) e.sn e.cn).1
        (boundaryStates exParams.g exParams.tinyH exParams.hAnuga e.bc (U e.cell) e.sn e.cn).2 e.sn e.cn =
          some (F, a) →
        a * e.len / exProblem.area e.cell * dt < ε) ∧
      EulerStep exParams m false exMesh exGid dt (fun p _ => exProblem.src p)
        (fun p _ => exProblem.mann p) U U' ∧
      (U' 0).h < 0 ∧
      ∀ dt' U'', ¬ EulerStep exParams m false exMesh exGid dt' (fun p _ => exProblem.src p)
        (fun p _ => exProblem.mann p) U' U'' := by
  obtain ⟨M, hM⟩ : ∃ M : ℝ, M = 100 + 33 / ε := ⟨_, rfl⟩
  have hMε : 33 / ε < M := by rw [hM]; linarith
  have hM100 : 100 ≤ M := by rw [hM]; have : 0 < 33 / ε := by positivity
                             linarith
  have hM0 : 0 < M := by linarith
  have hM2 : 10000 ≤ M ^ 2 := by nlinarith
  have hMe : 33 < M * ε := by rwa [div_lt_iff₀ hε] at hMε
  have hpos : ∀ c, 0 < (filmU M c).h := by
    intro c
    unfold filmU
    by_cases h : c = 0
    · simp only [h, if_true]
      apply mul_pos <;> [norm_num; linarith]
    · simp only [h, if_false]
      norm_num
  have hdt : (0 : ℝ) < 8 / M ^ 2 := by positivity
  obtain ⟨U', hU'⟩ := exStep_exists m false (le_of_lt hdt) (fun c => le_of_lt (hpos c))
  have hsmall : ∀ a : ℝ, a ≤ 2 * M → a * 1 / (1 / 2) * (8 / M ^ 2) < ε := by
    intro a ha
    have e : a * 1 / (1 / 2) * (8 / M ^ 2) = 16 * a / M ^ 2 := by field_simp; ring
    rw [e, div_lt_iff₀ (by positivity)]
    nlinarith only [ha, hMe, hM0]
  obtain ⟨v0, v1⟩ := film_vel (M := M)
  -- the new depths
  obtain ⟨hF, hS⟩ := (euler_iff exPartitioned exDivides2 (filmU M) U').mp hU'
  obtain ⟨pr, hpr⟩ := Option.isSome_iff_exists.mp (hF.1 ⟨0, 1, 1, 0, 1⟩ (by simp [exProblem]))
  have hpr' := hpr
  unfold GProblem.pair facePair at hpr'
  simp only [Bool.false_eq_true, if_false] at hpr'
  rw [v0, v1] at hpr'
  rw [Option.map_eq_some_iff] at hpr'
  obtain ⟨F, hF1, rfl⟩ := hpr'
  unfold usedFlux at hF1
  rw [if_pos (by simp only [exParams]; norm_num), Option.map_eq_some_iff] at hF1
  obtain ⟨⟨F', a⟩, hR, rfl⟩ := hF1
  have hflux := film_flux hM100 hR
  have wall : ∀ e ∈ exProblem.bedges, (bndFlux exParams (filmU M) e).m = 0 := by
    intro e he
    apply wall_mass (by norm_num [exParams]) (hpos _)
    all_goals
      simp only [exProblem, List.mem_cons, List.not_mem_nil, or_false] at he
      rcases he with rfl | rfl <;> norm_num
  have hbnd : ∀ γ, (exProblem.bedges.map (exProblem.bndTerm exParams (filmU M) γ Flux.m)).sum = 0 := by
    intro γ
    apply List.sum_eq_zero
    intro x hx
    obtain ⟨e, he, rfl⟩ := List.mem_map.mp hx
    unfold GProblem.bndTerm
    rw [wall e he]
    simp
  have hdiv : ∀ γ, exProblem.div exParams false (filmU M) γ Flux.m =
      (if 0 = γ then F'.m * (-1 / (1 / 2)) else 0) + if 1 = γ then F'.m * (1 / (1 / 2)) else 0 := by
    intro γ
    unfold GProblem.div
    rw [hbnd, add_zero]
    have : exProblem.edges = [⟨0, 1, 1, 0, 1⟩] := rfl
    rw [this]
    simp only [List.map_cons, List.map_nil, List.sum_cons, List.sum_nil, add_zero, GProblem.edgeTerm, hpr,
      Option.getD_some]
    rfl
  have step : ∀ γ < 2, (U' γ).h = (filmU M γ).h + 8 / M ^ 2 *
      (exProblem.div exParams false (filmU M) γ Flux.m + (exProblem.src γ).m) := by
    intro γ hγ
    obtain ⟨G, hG, hm, -⟩ := hS γ hγ
    unfold GProblem.rhs at hG
    rw [Option.map_eq_some_iff] at hG
    obtain ⟨t, -, rfl⟩ := hG
    exact hm
  have hFm : 3.9 * M ^ 2 / 9.806 ≤ 8 / M ^ 2 * F'.m := by
    have h1 := mul_le_mul_of_nonneg_left hflux.1 (le_of_lt hdt)
    apply le_trans _ h1
    have e : 8 / M ^ 2 * (M ^ 2 * (M ^ 2 - 1 / 2) / (2 * 9.806)) = 4 * (M ^ 2 - 1 / 2) / 9.806 := by
      field_simp
      ring
    rw [e]
    norm_num
    linarith
  have hneg : (U' 0).h < 0 := by
    rw [step 0 (by norm_num), hdiv]
    have e : (filmU M 0).h + 8 / M ^ 2 * (((if 0 = 0 then F'.m * (-1 / (1 / 2)) else 0) +
        if 1 = 0 then F'.m * (1 / (1 / 2)) else 0) + (exProblem.src 0).m) =
        2 / 9.806 * (M ^ 2 - 1 / 4) - 2 * (8 / M ^ 2 * F'.m) + 8 / M ^ 2 * 1e-3 := by
      simp [filmU, exProblem]
      ring
    rw [e]
    have h8 : 8 / M ^ 2 ≤ 1 := by
      rw [div_le_one (by positivity)]
      linarith
    norm_num at hFm ⊢
    linarith
  have hnext : exParams.tinyH ≤ (U' 1).h := by
    rw [step 1 (by norm_num), hdiv]
    have e : (filmU M 1).h + 8 / M ^ 2 * (((if 0 = 1 then F'.m * (-1 / (1 / 2)) else 0) +
        if 1 = 1 then F'.m * (1 / (1 / 2)) else 0) + (exProblem.src 1).m) =
        1 / (2 * 9.806) + 2 * (8 / M ^ 2 * F'.m) := by
      simp [filmU, exProblem]
      ring
    rw [e]
    simp only [exParams]
    norm_num at hFm ⊢
    linarith
  refine ⟨8 / M ^ 2, filmU M, U', hdt, hpos, ?_, ?_, hU', hneg, ?_⟩
  · intro e he F a h
    simp only [exProblem, List.mem_singleton] at he
    subst he
    simp only at h
    rw [v0, v1] at h
    have := (film_flux hM100 h).2
    simp only [exProblem, min_self]
    exact hsmall a this
  · intro e he F a h
    simp only [exProblem, List.mem_cons, List.not_mem_nil, or_false] at he
    rcases he with rfl | rfl
    · simp only [boundaryStates, v0] at h
      have := wall_speed (hpos 0) (by norm_num) h
      apply hsmall
      rw [this, Real.sqrt_le_left (by linarith)]
      simp only [exParams]
      nlinarith only [hM2]
    · simp only [boundaryStates, v1] at h
      have := wall_speed (by norm_num) (by norm_num) h
      apply hsmall
      rw [this, Real.sqrt_le_left (by linarith)]
      simp only [exParams]
      nlinarith only [hM2]
  · intro dt' U'' h
    have hd := ((euler_iff exPartitioned exDivides2 U' U'').mp h).1.1 ⟨0, 1, 1, 0, 1⟩ (by simp [exProblem])
    unfold GProblem.pair facePair at hd
    simp only [Bool.false_eq_true, if_false] at hd
    rw [C39_negative_depth_violated _ _ _ _ _ _ hneg hnext] at hd
    simp at hd

end RDy
