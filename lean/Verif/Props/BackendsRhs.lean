import Verif.Props.Backends
import Verif.Props.LakeAtRest
import Verif.Props.Tracer

/-!
C48, continued: hydrostatic reconstruction, friction, tracers, and the whole right-hand side of the two
backends.
-/

namespace RDy

/-! ### Hydrostatic reconstruction -/

/-- What PETSc gives the two cells of an edge with hydrostatic reconstruction, before scaling by length
over area (specification, from the parts of the model of `ApplyInteriorFluxHR`). -/
noncomputable def hrPairPetsc (P : FlowParams) (zL zR : ℝ) (qL qR : Cons) (sn cn : ℝ) :
    Option (Flux × Flux) :=
  if qR.h < P.tinyH ∧ qL.h < P.tinyH then some (⟨0, 0, 0⟩, ⟨0, 0, 0⟩)
  else (hrFlux P (hrState P zL (max zL zR) qL) (hrState P zR (max zL zR) qR) sn cn).map fun F =>
    (F.add (hrCorrection P qL.h (hrState P zL (max zL zR) qL).h sn cn),
     F.add (hrCorrection P qR.h (hrState P zR (max zL zR) qR).h sn cn))

theorem velocitiesCeed_hr {P : FlowParams} (z zmax : ℝ) (q : Cons) (ht : 0 < P.tinyH) :
    velocitiesCeed P.tinyH P.hAnuga q =
      some ⟨q.h, (hrState P z zmax q).u, (hrState P z zmax q).v⟩ := by
  unfold velocitiesCeed hrState safeDiv
  by_cases h : q.h > P.tinyH
  · have hd : q.h * q.h + P.hAnuga * P.hAnuga ≠ 0 := by
      have : 0 < q.h := ht.trans h
      nlinarith [mul_pos this this, mul_self_nonneg P.hAnuga]
    simp only [if_pos h, if_neg hd]
    rfl
  · simp only [if_neg h]
    rfl

theorem hrStateCeed_eq {P : FlowParams} (z zmax : ℝ) (q : Cons) (ht : 0 < P.tinyH) :
    hrStateCeed P z zmax q = some ⟨(hrState P z zmax q).h,
      (hrState P z zmax q).h * (hrState P z zmax q).u,
      (hrState P z zmax q).h * (hrState P z zmax q).v⟩ := by
  unfold hrStateCeed
  rw [velocitiesCeed_hr z zmax q ht]
  rfl

/-- A reconstructed side for which CEED recovers the velocity: it is deeper than the dry threshold and
velocities are not regularised, or the water is at rest. -/
def HRSide (P : FlowParams) (s : Prim) : Prop :=
  (P.hAnuga = 0 ∧ s.h > P.tinyH) ∨ (s.u = 0 ∧ s.v = 0)

theorem velocitiesCeed_rec {P : FlowParams} {s : Prim} (ht : 0 < P.tinyH) (hs : HRSide P s) :
    velocitiesCeed P.tinyH P.hAnuga ⟨s.h, s.h * s.u, s.h * s.v⟩ = some s := by
  unfold velocitiesCeed safeDiv
  rcases hs with ⟨h0, hh⟩ | ⟨hu, hv⟩
  · have hne : s.h ≠ 0 := by linarith
    have hd : s.h * s.h + P.hAnuga * P.hAnuga ≠ 0 := by rw [h0]; simpa using hne
    simp only [if_pos hh, if_neg hd, Option.bind_some, Option.map_some, Option.some.injEq]
    rw [h0]
    have e1 : s.h * s.u * s.h / (s.h * s.h + 0 * 0) = s.u := by field_simp; ring
    have e2 : s.h * s.v * s.h / (s.h * s.h + 0 * 0) = s.v := by field_simp; ring
    rw [e1, e2]
  · by_cases hh : s.h > P.tinyH
    · have hd : s.h * s.h + P.hAnuga * P.hAnuga ≠ 0 := by
        have : 0 < s.h := ht.trans hh
        nlinarith [mul_pos this this, mul_self_nonneg P.hAnuga]
      simp only [if_pos hh, if_neg hd, Option.bind_some, Option.map_some, hu, hv, mul_zero, zero_mul,
        zero_div, Option.some.injEq]
      rw [← hu]
      conv_lhs => rw [show s.u = s.u from rfl]
      cases s
      simp_all
    · simp only [if_neg hh, Option.bind_some, Option.map_some, Option.some.injEq]
      cases s
      simp_all

theorem roeFluxCeed_rec {P : FlowParams} {L R : Prim} (sn cn : ℝ) (hg : 0 ≤ P.g) (ht : 0 < P.tinyH)
    (hL : HRSide P L) (hR : HRSide P R) :
    roeFluxCeed P.g P.tinyH P.hAnuga ⟨L.h, L.h * L.u, L.h * L.v⟩ ⟨R.h, R.h * R.u, R.h * R.v⟩ sn cn 0 =
      roeFlux P.g L R sn cn := by
  unfold roeFluxCeed roeFlux
  rw [velocitiesCeed_rec ht hL, velocitiesCeed_rec ht hR]
  simp only [Option.bind_some, roeEigCeed_eq hg]
  congr 3
  ext <;> simp

/-- C48 for hydrostatic reconstruction, partial: both backends give the two cells the same, unless a depth
equals the dry threshold, for reconstructed sides that are at rest or (without regularisation) deeper
than the threshold. For the rest see `C48_hr_anuga_violated` and `C48_hr_step_violated`. -/
theorem C48_hr_partial {P : FlowParams} (zL zR : ℝ) (qL qR : Cons) (sn cn : ℝ) (hg : 0 ≤ P.g)
    (ht : 0 < P.tinyH) (hL : qL.h ≠ P.tinyH) (hR : qR.h ≠ P.tinyH)
    (sL : HRSide P (hrState P zL (max zL zR) qL)) (sR : HRSide P (hrState P zR (max zL zR) qR)) :
    hrPairCeed P zL zR qL qR sn cn = hrPairPetsc P zL zR qL qR sn cn := by
  unfold hrPairCeed hrPairPetsc
  by_cases h : qL.h > P.tinyH ∨ qR.h > P.tinyH
  · have h' : ¬ (qR.h < P.tinyH ∧ qL.h < P.tinyH) := by
      rintro ⟨a, b⟩
      rcases h with h | h <;> linarith
    rw [if_pos h, if_neg h', hrStateCeed_eq _ _ _ ht, hrStateCeed_eq _ _ _ ht]
    simp only [Option.bind_some]
    unfold hrFluxCeed hrFlux
    simp only
    rw [roeFluxCeed_rec sn cn hg ht sL sR]
  · rw [not_or, not_lt, not_lt] at h
    have h' : qR.h < P.tinyH ∧ qL.h < P.tinyH := ⟨lt_of_le_of_ne h.2 hR, lt_of_le_of_ne h.1 hL⟩
    rw [if_neg (not_or.2 ⟨not_lt.2 h.1, not_lt.2 h.2⟩), if_pos h']

/-- water flowing over a step -/
example : hrPairCeed exParams 0 1 ⟨3, 1, 0⟩ ⟨2, 1, 1⟩ 0.6 0.8 =
    hrPairPetsc exParams 0 1 ⟨3, 1, 0⟩ ⟨2, 1, 1⟩ 0.6 0.8 :=
  C48_hr_partial (P := exParams) 0 1 ⟨3, 1, 0⟩ ⟨2, 1, 1⟩ 0.6 0.8 (by norm_num [exParams])
    (by norm_num [exParams]) (by norm_num [exParams]) (by norm_num [exParams])
    (Or.inl (by norm_num [exParams, hrState])) (Or.inl (by norm_num [exParams, hrState]))

/-- CEED regularises velocities twice with hydrostatic reconstruction: uniform flow over a flat bed gets a
smaller discharge than with PETSc. -/
theorem C48_hr_anuga_violated :
    (∃ F : Flux × Flux, hrPairCeed ⟨9, 1e-7, 1, 0⟩ 0 0 ⟨1, 4, 0⟩ ⟨1, 4, 0⟩ 0 1 = some F ∧ F.1.m = 1) ∧
    ∃ F : Flux × Flux, hrPairPetsc ⟨9, 1e-7, 1, 0⟩ 0 0 ⟨1, 4, 0⟩ ⟨1, 4, 0⟩ 0 1 = some F ∧ F.1.m = 2 := by
  have hs : hrState ⟨9, 1e-7, 1, 0⟩ 0 (max 0 0) ⟨1, 4, 0⟩ = ⟨1, 2, 0⟩ := by
    unfold hrState
    norm_num
  constructor
  · unfold hrPairCeed
    rw [if_pos (by norm_num), hrStateCeed_eq _ _ _ (by norm_num), hs]
    simp only [Option.bind_some]
    unfold hrFluxCeed
    rw [if_pos (by norm_num), roeFluxCeed_eq (g := 9) (tinyH := 1e-7) 1 _ _ 0 1 (by norm_num)
      (by norm_num) (by norm_num) (by norm_num)]
    have hv : velocities 1e-7 1 ⟨1, 1 * 2, 1 * 0⟩ = ⟨1, 1, 0⟩ := by
      unfold velocities
      rw [if_neg (by norm_num)]
      norm_num
    rw [hv, C36_consistent (g := 9) ⟨1, 1, 0⟩ 1 0 (by norm_num) (by norm_num)]
    exact ⟨_, rfl, by norm_num [physFlux, Flux.add, hrCorrection]⟩
  · unfold hrPairPetsc
    rw [if_neg (by norm_num), hs]
    unfold hrFlux
    rw [if_pos (by norm_num), C36_consistent (g := 9) ⟨1, 2, 0⟩ 1 0 (by norm_num) (by norm_num)]
    exact ⟨_, rfl, by norm_num [physFlux, Flux.add, hrCorrection]⟩

theorem entropyFix_big {d : ℝ} (hd : 1 < d) : d / 2 ≤ entropyFix 1 d := by
  unfold entropyFix
  rw [if_pos hd]
  have : 0 ≤ 1 * 1 / d := by positivity
  linarith

theorem roe_dry_left (g : ℝ) (u : ℝ) :
    (roeCombine (sideFlux g ⟨0, u, 0⟩ 0 1) (sideFlux g ⟨1, 0, 0⟩ 0 1)
      (roeEig g ⟨0, u, 0⟩ ⟨1, 0, 0⟩ 0 1) 0 1).m =
      -0.25 * ((roeEig g ⟨0, u, 0⟩ ⟨1, 0, 0⟩ 0 1).a1 + (roeEig g ⟨0, u, 0⟩ ⟨1, 0, 0⟩ 0 1).a3) := by
  have w1 : (roeEig g ⟨0, u, 0⟩ ⟨1, 0, 0⟩ 0 1).w1 = 0.5 := by norm_num [roeEig]
  have w3 : (roeEig g ⟨0, u, 0⟩ ⟨1, 0, 0⟩ 0 1).w3 = 0.5 := by norm_num [roeEig]
  simp only [roeCombine, sideFlux, uperp, w1, w3]
  ring

/-- Water on a step two units high, and below it water one unit deep that flows away: with PETSc the
velocity of the lower water enters the flux over the step (through the entropy fix) although no lower
water reaches the step; with CEED it does not. -/
theorem C48_hr_step_violated :
    ∃ Fc Fp : Flux × Flux,
      hrPairCeed ⟨2, 1e-7, 0, 0⟩ 0 2 ⟨1, -10, 0⟩ ⟨1, 0, 0⟩ 0 1 = some Fc ∧
      hrPairPetsc ⟨2, 1e-7, 0, 0⟩ 0 2 ⟨1, -10, 0⟩ ⟨1, 0, 0⟩ 0 1 = some Fp ∧ Fp.1.m < Fc.1.m - 3 := by
  have hsL : hrState ⟨2, 1e-7, 0, 0⟩ 0 (max 0 2) ⟨1, -10, 0⟩ = ⟨0, -10, 0⟩ := by
    unfold hrState
    norm_num
  have hsR : hrState ⟨2, 1e-7, 0, 0⟩ 2 (max 0 2) ⟨1, 0, 0⟩ = ⟨1, 0, 0⟩ := by
    unfold hrState
    norm_num
  have h2 : √(2 : ℝ) ^ 2 = 2 := Real.sq_sqrt (by norm_num)
  have h20 : 0 ≤ √(2 : ℝ) := Real.sqrt_nonneg _
  have hlt : √(2 : ℝ) < 1.5 := by nlinarith
  have hgt : 1.4 < √(2 : ℝ) := by nlinarith
  have hc : roeC 2 0 1 = 1 := by unfold roeC; norm_num
  have hup : ∀ u : ℝ, uperp (roeAvg 0 1 u 0) (roeAvg 0 1 0 0) 0 1 = 0 := by
    intro u; norm_num [uperp, roeAvg]
  have A : ∃ Fc : Flux × Flux, hrPairCeed ⟨2, 1e-7, 0, 0⟩ 0 2 ⟨1, -10, 0⟩ ⟨1, 0, 0⟩ 0 1 = some Fc ∧
      Fc.1.m = -0.25 * ((roeEig 2 ⟨0, 0, 0⟩ ⟨1, 0, 0⟩ 0 1).a1 + (roeEig 2 ⟨0, 0, 0⟩ ⟨1, 0, 0⟩ 0 1).a3) := by
    unfold hrPairCeed
    rw [if_pos (by norm_num), hrStateCeed_eq _ _ _ (by norm_num), hrStateCeed_eq _ _ _ (by norm_num), hsL,
      hsR]
    simp only [Option.bind_some]
    unfold hrFluxCeed
    rw [if_pos (by norm_num), roeFluxCeed_eq (g := 2) (tinyH := 1e-7) 0 _ _ 0 1 (by norm_num)
      (by norm_num) (by norm_num) (by norm_num)]
    have hv : velocities 1e-7 0 ⟨0, 0 * -10, 0 * 0⟩ = ⟨0, 0, 0⟩ := by
      unfold velocities
      rw [if_pos (by norm_num)]
    have hv' : velocities 1e-7 0 ⟨1, 1 * 0, 1 * 0⟩ = ⟨1, 0, 0⟩ := by
      unfold velocities
      rw [if_neg (by norm_num)]
      norm_num
    rw [hv, hv']
    unfold roeFlux
    rw [if_pos (by norm_num [RoeDefined])]
    refine ⟨_, rfl, ?_⟩
    simp only [hrCorrection, Flux.add, add_zero]
    exact roe_dry_left 2 0
  have B : ∃ Fp : Flux × Flux, hrPairPetsc ⟨2, 1e-7, 0, 0⟩ 0 2 ⟨1, -10, 0⟩ ⟨1, 0, 0⟩ 0 1 = some Fp ∧
      Fp.1.m = -0.25 * ((roeEig 2 ⟨0, -10, 0⟩ ⟨1, 0, 0⟩ 0 1).a1 +
        (roeEig 2 ⟨0, -10, 0⟩ ⟨1, 0, 0⟩ 0 1).a3) := by
    unfold hrPairPetsc
    rw [if_neg (by norm_num), hsL, hsR]
    unfold hrFlux roeFlux
    rw [if_pos (by norm_num), if_pos (by norm_num [RoeDefined])]
    refine ⟨_, rfl, ?_⟩
    simp only [hrCorrection, Flux.add, add_zero]
    exact roe_dry_left 2 (-10)
  obtain ⟨Fc, hFc, mc⟩ := A
  obtain ⟨Fp, hFp, mp⟩ := B
  refine ⟨Fc, Fp, hFc, hFp, ?_⟩
  · rw [mc, mp]
    have c1 : (roeEig 2 ⟨0, 0, 0⟩ ⟨1, 0, 0⟩ 0 1).a1 = 1 := by
      unfold roeEig
      simp only [hup, hc]
      have hm : max (0 : ℝ) (2 * (uperp 0 0 0 1 - √(2 * 1) - (uperp 0 0 0 1 - √(2 * 0)))) = 0 := by
        simp only [uperp, mul_one, mul_zero, Real.sqrt_zero]
        exact max_eq_left (by linarith)
      rw [hm]
      norm_num [entropyFix]
    have c3 : (roeEig 2 ⟨0, 0, 0⟩ ⟨1, 0, 0⟩ 0 1).a3 ≤ 2 := by
      unfold roeEig
      simp only [hup, hc]
      have hm : max (0 : ℝ) (2 * (uperp 0 0 0 1 + √(2 * 1) - (uperp 0 0 0 1 + √(2 * 0)))) = 2 * √2 := by
        simp only [uperp, mul_one, mul_zero, Real.sqrt_zero]
        rw [max_eq_right (by linarith)]
        ring
      rw [hm]
      unfold entropyFix
      rw [if_pos (by norm_num; linarith)]
      have : |(0 : ℝ) + 1| * |(0 : ℝ) + 1| / (2 * √2) ≤ 1 := by
        rw [div_le_one (by linarith)]
        norm_num
        linarith
      linarith
    have p1 : 8 ≤ (roeEig 2 ⟨0, -10, 0⟩ ⟨1, 0, 0⟩ 0 1).a1 := by
      unfold roeEig
      simp only [hup, hc]
      have hm : max (0 : ℝ) (2 * (uperp 0 0 0 1 - √(2 * 1) - (uperp (-10) 0 0 1 - √(2 * 0)))) =
          2 * (10 - √2) := by
        simp only [uperp, mul_one, mul_zero, Real.sqrt_zero]
        rw [max_eq_right (by linarith)]
        ring
      rw [hm, show |(0 : ℝ) - 1| = 1 by norm_num]
      have := entropyFix_big (d := 2 * (10 - √2)) (by linarith)
      linarith
    have p3 : 11 ≤ (roeEig 2 ⟨0, -10, 0⟩ ⟨1, 0, 0⟩ 0 1).a3 := by
      unfold roeEig
      simp only [hup, hc]
      have hm : max (0 : ℝ) (2 * (uperp 0 0 0 1 + √(2 * 1) - (uperp (-10) 0 0 1 + √(2 * 0)))) =
          2 * (10 + √2) := by
        simp only [uperp, mul_one, mul_zero, Real.sqrt_zero]
        rw [max_eq_right (by linarith)]
        ring
      rw [hm, show |(0 : ℝ) + 1| = 1 by norm_num]
      have := entropyFix_big (d := 2 * (10 + √2)) (by linarith)
      linarith
    linarith

/-! ### Friction -/

theorem rpow_half (x : ℝ) : x ^ (0.5 : ℝ) = √x := by
  rw [Real.sqrt_eq_rpow]
  norm_num

theorem xqCeed_eq (P : FlowParams) (dt n : ℝ) (q : Cons) (Fx Fy bx bY : ℝ) (hw : q.h ≥ P.tinyH) :
    xqCeed P dt n q Fx Fy bx bY = frictionXQ2018 P dt n q Fx Fy bx bY := by
  unfold xqCeed frictionXQ2018
  rw [if_pos hw]
  unfold xqDischargeCeed xqDischarge xqLambdaCeed xqLambda
  simp only [rpow_half]

theorem semiImplicitCeed_eq {P : FlowParams} (dt n : ℝ) (q : Cons) (Fx Fy bx bY : ℝ)
    (ht : 0 < P.tinyH) (h0 : P.hAnuga = 0) (hw : q.h > P.tinyH) :
    semiImplicitCeed P dt n q Fx Fy bx bY = frictionSemiImplicit P dt n q Fx Fy bx bY := by
  unfold semiImplicitCeed frictionSemiImplicit
  rw [h0, velocitiesCeed_eq 0 q ht (ne_of_gt hw), velocities_wet ht hw, if_pos hw.le]
  simp only [Option.bind_some]
  by_cases hz : q.h = 0 ∨ 1 + dt * (P.g * (n * n) * q.h ^ (-(1 : ℝ) / 3) *
      √(q.hu / q.h * (q.hu / q.h) + q.hv / q.h * (q.hv / q.h)) / q.h) = 0
  · rw [if_pos hz, if_pos hz]
  · rw [if_neg hz, if_neg hz]
    congr 2 <;> ring

/-- C48 for friction: both backends compute the same term, unless the depth equals the dry threshold or
(semi-implicit method) velocities are regularised. -/
theorem C48_friction {P : FlowParams} (m : FrictionMethod) (dt n : ℝ) (q : Cons) (Fx Fy bx bY : ℝ)
    (ht : 0 < P.tinyH) (hm : m = .xq2018 ∨ P.hAnuga = 0) (hq : q.h ≠ P.tinyH) :
    frictionCeed P m dt n q Fx Fy bx bY = friction P m dt n q Fx Fy bx bY := by
  unfold frictionCeed friction
  by_cases hw : q.h > P.tinyH
  · rw [if_pos hw]
    cases m with
    | semiImplicit =>
      exact semiImplicitCeed_eq dt n q Fx Fy bx bY ht (by rcases hm with h | h; cases h; exact h) hw
    | xq2018 => exact xqCeed_eq P dt n q Fx Fy bx bY hw.le
  · have hd : ¬ q.h ≥ P.tinyH := not_le.2 (lt_of_le_of_ne (not_lt.1 hw) hq)
    rw [if_neg hw]
    cases m <;> simp only [frictionSemiImplicit, frictionXQ2018, if_neg hd]

example : frictionCeed exParams .semiImplicit 0.5 0.03 ⟨2, 1, -1⟩ 0.1 0.2 0.3 0.4 =
    friction exParams .semiImplicit 0.5 0.03 ⟨2, 1, -1⟩ 0.1 0.2 0.3 0.4 :=
  C48_friction .semiImplicit 0.5 0.03 ⟨2, 1, -1⟩ 0.1 0.2 0.3 0.4 (by norm_num [exParams]) (Or.inr rfl)
    (by norm_num [exParams])

/-- With regularised velocities the semi-implicit friction terms differ: CEED regularises the velocity in
the roughness, PETSc does not. -/
theorem C48_friction_anuga_violated :
    frictionCeed ⟨1, 1e-7, 1, 0⟩ .semiImplicit 1 1 ⟨1, 4, 0⟩ 0 0 0 0 = some (8 / 3, 0) ∧
    friction ⟨1, 1e-7, 1, 0⟩ .semiImplicit 1 1 ⟨1, 4, 0⟩ 0 0 0 0 = some (16 / 5, 0) := by
  have h4 : √((4 : ℝ) * 4) = 4 := Real.sqrt_mul_self (by norm_num)
  have h2 : √((2 : ℝ) * 2) = 2 := Real.sqrt_mul_self (by norm_num)
  constructor
  · unfold frictionCeed
    rw [if_pos (by norm_num)]
    unfold semiImplicitCeed
    have hv : velocities 1e-7 1 ⟨1, 4, 0⟩ = ⟨1, 2, 0⟩ := by
      unfold velocities
      rw [if_neg (by norm_num)]
      norm_num
    rw [velocitiesCeed_eq 1 _ (by norm_num) (by norm_num), hv]
    simp only [Option.bind_some, mul_zero, add_zero, Real.one_rpow, h2]
    norm_num
  · simp only [friction, frictionSemiImplicit]
    rw [if_pos (by norm_num)]
    simp only [div_one, mul_zero, add_zero, Real.one_rpow, h4]
    norm_num

/-! ### Tracers -/

/-- C48 for tracers, partial: for two cells deeper than the dry threshold both backends compute the same
fluxes of all components with either solver. At fronts they differ: `C48_tracer_front_violated`,
`C48_tracer_dry_right_violated`. -/
theorem C48_tracer_partial {g tinyH : ℝ} (sv : TSolver) (n : ℕ) (qL qR : TCons) (sn cn : ℝ) (hg : 0 ≤ g)
    (ht : 0 < tinyH) (hL : qL.q.h > tinyH) (hR : qR.q.h > tinyH) :
    tracerFluxCeed sv g tinyH n qL qR sn cn =
      usedTracerFlux sv g tinyH n (tracerVelocities tinyH qL) (tracerVelocities tinyH qR) sn cn := by
  have l0 : qL.q.h ≠ 0 := by linarith
  have r0 : qR.q.h ≠ 0 := by linarith
  have hv : tracerVelocitiesCeed tinyH qL qR =
      some (tracerVelocities tinyH qL, tracerVelocities tinyH qR) := by
    unfold tracerVelocitiesCeed tracerVelocities safeDiv
    have hn : ¬ (qL.q.h > tinyH ∧ (qL.q.h = 0 ∨ qR.q.h = 0)) := by
      rintro ⟨-, a | a⟩
      · exact l0 a
      · exact r0 a
    simp only [if_pos hL, if_pos hR, if_neg l0, if_neg r0, Option.bind_some, if_neg hn,
      if_neg (not_lt.2 hL.le), if_neg (not_lt.2 hR.le)]
  have hpL : (tracerVelocities tinyH qL).p.h = qL.q.h := by
    unfold tracerVelocities; rw [if_neg (not_lt.2 hL.le)]
  have hpR : (tracerVelocities tinyH qR).p.h = qR.q.h := by
    unfold tracerVelocities; rw [if_neg (not_lt.2 hR.le)]
  have hw : ¬ ((tracerVelocities tinyH qR).p.h < tinyH ∧ (tracerVelocities tinyH qL).p.h < tinyH) := by
    rw [hpR]; exact fun a => absurd a.1 (not_lt.2 hR.le)
  unfold tracerFluxCeed usedTracerFlux tracerFlux
  rw [if_pos (Or.inl hL), if_pos hw, hv]
  simp only [Option.bind_some, roeEigCeed_eq hg]

example : tracerFluxCeed .roe 9.806 1e-7 2 ⟨⟨2, 1, -1⟩, fun j => j⟩ ⟨⟨1, 0, 0⟩, fun _ => 3⟩ 0.6 0.8 =
    usedTracerFlux .roe 9.806 1e-7 2 (tracerVelocities 1e-7 ⟨⟨2, 1, -1⟩, fun j => j⟩)
      (tracerVelocities 1e-7 ⟨⟨1, 0, 0⟩, fun _ => 3⟩) 0.6 0.8 :=
  C48_tracer_partial .roe 2 _ _ 0.6 0.8 (by norm_num) (by norm_num) (by norm_num) (by norm_num)

/-- Left cell dry, right cell wet, upwind solver: the backends agree on the water flux, but with CEED no
tracer crosses the edge, because the right concentration is guarded by the left depth. -/
theorem C48_tracer_front_violated {g tinyH : ℝ} (n j : ℕ) (qL qR : TCons) (sn cn : ℝ) (hg : 0 ≤ g)
    (ht : 0 < tinyH) (hL : qL.q.h < tinyH) (hL0 : 0 ≤ qL.q.h) (hR : qR.q.h > tinyH) :
    ∃ F F', tracerFluxCeed .upwind g tinyH n qL qR sn cn = some F ∧
      usedTracerFlux .upwind g tinyH n (tracerVelocities tinyH qL) (tracerVelocities tinyH qR) sn cn =
        some F' ∧
      F 0 = F' 0 ∧ F (3 + j) = 0 ∧ F' (3 + j) = F' 0 * (if F' 0 ≥ 0 then 0 else qR.hc j / qR.q.h) := by
  have r0 : qR.q.h ≠ 0 := by linarith
  have hl : ¬ qL.q.h > tinyH := not_lt.2 hL.le
  have hvL : tracerVelocities tinyH qL = ⟨⟨qL.q.h, 0, 0⟩, fun _ => 0⟩ := by
    unfold tracerVelocities; rw [if_pos hL]
  have hvR : tracerVelocities tinyH qR =
      ⟨⟨qR.q.h, qR.q.hu / qR.q.h, qR.q.hv / qR.q.h⟩, fun j => qR.hc j / qR.q.h⟩ := by
    unfold tracerVelocities; rw [if_neg (not_lt.2 hR.le)]
  have hdef : RoeDefined qL.q.h qR.q.h := ⟨hL0, by linarith, by linarith⟩
  unfold tracerFluxCeed tracerVelocitiesCeed safeDiv usedTracerFlux tracerFlux
  rw [if_pos (Or.inr hR), hvL, hvR]
  simp only [if_pos hR, if_neg r0, Option.bind_some, hl, false_and, if_false, roeEigCeed_eq hg]
  rw [if_pos hdef, if_pos (fun a => absurd a.1 (not_lt.2 hR.le)), if_pos hdef]
  refine ⟨_, _, rfl, rfl, ?_, ?_, ?_⟩
  · rw [upwindCombine_zero, upwindCombine_zero]
  · rw [upwindCombine_tracer]
    split_ifs <;> simp
  · rw [upwindCombine_tracer]

/-- still water beside a dry cell: tracer crosses the edge with PETSc, none with CEED -/
example : ∃ F F', tracerFluxCeed .upwind 2 1e-7 1 ⟨⟨0, 0, 0⟩, fun _ => 0⟩ ⟨⟨1, 0, 0⟩, fun _ => 5⟩ 0 1 =
      some F ∧
    usedTracerFlux .upwind 2 1e-7 1 (tracerVelocities 1e-7 ⟨⟨0, 0, 0⟩, fun _ => 0⟩)
      (tracerVelocities 1e-7 ⟨⟨1, 0, 0⟩, fun _ => 5⟩) 0 1 = some F' ∧ F 3 = 0 ∧ F' 3 < 0 := by
  obtain ⟨F, F', h1, h2, -, h4, h5⟩ := C48_tracer_front_violated (g := 2) (tinyH := 1e-7) 1 0
    ⟨⟨0, 0, 0⟩, fun _ => 0⟩ ⟨⟨1, 0, 0⟩, fun _ => 5⟩ 0 1 (by norm_num) (by norm_num) (by norm_num)
    (le_refl 0) (by norm_num)
  refine ⟨F, F', h1, h2, h4, ?_⟩
  have hneg : F' 0 < 0 := by
    have hvL : tracerVelocities 1e-7 ⟨⟨0, 0, 0⟩, fun _ => 0⟩ = ⟨⟨0, 0, 0⟩, fun _ => 0⟩ := by
      unfold tracerVelocities; rw [if_pos (by norm_num)]
    have hvR : tracerVelocities 1e-7 ⟨⟨1, 0, 0⟩, fun _ => 5⟩ = ⟨⟨1, 0, 0⟩, fun _ => 5⟩ := by
      unfold tracerVelocities; rw [if_neg (by norm_num)]; norm_num
    rw [hvL, hvR] at h2
    unfold usedTracerFlux tracerFlux at h2
    rw [if_pos (by norm_num), if_pos (by norm_num [RoeDefined])] at h2
    simp only [Option.some.injEq] at h2
    rw [← h2, upwindCombine_zero, roe_dry_left]
    have hc : roeC 2 0 1 = 1 := by unfold roeC; norm_num
    have hup : uperp (roeAvg 0 1 0 0) (roeAvg 0 1 0 0) 0 1 = 0 := by norm_num [uperp, roeAvg]
    have e1 : 1 ≤ (roeEig 2 ⟨0, 0, 0⟩ ⟨1, 0, 0⟩ 0 1).a1 := by
      refine le_trans ?_ (entropyFix_ge (abs_nonneg _))
      simp only [hup, hc]
      norm_num
    have e3 : 1 ≤ (roeEig 2 ⟨0, 0, 0⟩ ⟨1, 0, 0⟩ 0 1).a3 := by
      refine le_trans ?_ (entropyFix_ge (abs_nonneg _))
      simp only [hup, hc]
      norm_num
    linarith
  rw [if_neg (not_le.2 hneg)] at h5
  rw [show (3 : ℕ) = 3 + 0 from rfl, h5]
  norm_num
  linarith

/-- Left cell wet, right cell exactly dry: CEED divides by zero, PETSc computes a flux. -/
theorem C48_tracer_dry_right_violated {g tinyH : ℝ} (sv : TSolver) (n : ℕ) (qL qR : TCons) (sn cn : ℝ)
    (ht : 0 < tinyH) (hL : qL.q.h > tinyH) (hR : qR.q.h = 0) :
    tracerFluxCeed sv g tinyH n qL qR sn cn = none ∧
    (usedTracerFlux sv g tinyH n (tracerVelocities tinyH qL) (tracerVelocities tinyH qR) sn cn).isSome := by
  have hr : ¬ qR.q.h > tinyH := by rw [hR]; exact not_lt.2 ht.le
  have l0 : qL.q.h ≠ 0 := by linarith
  constructor
  · unfold tracerFluxCeed tracerVelocitiesCeed safeDiv
    rw [if_pos (Or.inl hL)]
    simp only [if_pos hL, if_neg hr, if_neg l0, Option.bind_some]
    rw [if_pos ⟨hL, Or.inr hR⟩]
    rfl
  · have hpL : (tracerVelocities tinyH qL).p.h = qL.q.h := by
      unfold tracerVelocities; rw [if_neg (not_lt.2 hL.le)]
    have hpR : (tracerVelocities tinyH qR).p.h = qR.q.h := by
      unfold tracerVelocities; rw [if_pos (by rw [hR]; exact ht)]
    have hw : ¬ ((tracerVelocities tinyH qR).p.h < tinyH ∧ (tracerVelocities tinyH qL).p.h < tinyH) := by
      rw [hpL]; exact fun a => absurd a.2 (not_lt.2 hL.le)
    unfold usedTracerFlux tracerFlux
    rw [if_pos hw, if_pos (by rw [hpL, hpR, hR]; exact ⟨by linarith, le_refl 0, by linarith⟩)]
    cases sv <;> rfl

/-! ### The whole right-hand side -/

theorem foldlM_congr_mem {α β : Type} {f g : β → α → Option β} :
    ∀ (l : List α), (∀ a ∈ l, ∀ b, f b a = g b a) → ∀ b, l.foldlM f b = l.foldlM g b
  | [], _, b => rfl
  | a :: l, h, b => by
    rw [List.foldlM_cons, List.foldlM_cons, h a (by simp) b]
    congr 1
    funext b'
    exact foldlM_congr_mem l (fun a' ha' => h a' (by simp [ha'])) b'

/-- The boundary edges at which the backends agree (see `C48_outflow_partial`). -/
def RegularEdge (P : FlowParams) (q : Cons) (e : BEdge) : Prop :=
  match e.bc with
  | .dirichlet qb => qb.h ≠ P.tinyH
  | .reflecting => True
  | .outflow => P.hAnuga = 0 ∧
      ((q.h > P.tinyH ∧ (q.hu * e.cn + q.hv * e.sn ≤ 0 ∨
        criticalDepth P.g (q.hu * e.cn + q.hv * e.sn) > P.tinyH)) ∨
      (q.h < P.tinyH ∧ q.hu = 0 ∧ q.hv = 0))

theorem boundaryFluxCeed_eq {P : FlowParams} {q : Cons} {e : BEdge} (hg : 0 < P.g) (ht : 0 < P.tinyH)
    (hq : q.h ≠ P.tinyH) (he : RegularEdge P q e) :
    (boundaryFluxCeed P e.bc q e.sn e.cn).map Prod.fst =
      usedFlux P.g P.tinyH (boundaryStates P.g P.tinyH P.hAnuga e.bc q e.sn e.cn).1
        (boundaryStates P.g P.tinyH P.hAnuga e.bc q e.sn e.cn).2 e.sn e.cn := by
  unfold RegularEdge at he
  cases hb : e.bc with
  | dirichlet qb =>
    rw [hb] at he
    exact C48_interior P.hAnuga q qb e.sn e.cn hg.le ht hq he
  | reflecting => exact C48_reflecting P.hAnuga q e.sn e.cn hg.le ht hq
  | outflow =>
    rw [hb] at he
    simp only [boundaryFluxCeed]
    rw [he.1]
    exact C48_outflow_partial q e.sn e.cn hg ht he.2

theorem addOwned_all {pm : PMesh} (h : ∀ c, pm.owned c = true) (f : ℕ → Flux) (c : ℕ) (F : Flux) :
    addOwned pm f c F = addAt f (pm.l2o c) F := by
  unfold addOwned
  rw [if_pos (h c)]

theorem sourceFold_eq {P : FlowParams} (m : FrictionMethod) (slope : Bool) {pm : PMesh} (dt : ℝ)
    (src : ℕ → Flux) (mann : ℕ → ℝ) (fd : ℕ → Flux) (u : ℕ → Cons) (ht : 0 < P.tinyH)
    (hm : m = .xq2018 ∨ P.hAnuga = 0) (hu : ∀ c < pm.numCells, (u c).h ≠ P.tinyH)
    (hinj : OwnedInj pm) :
    ∀ (l : List ℕ), l.Nodup → (∀ c ∈ l, c < pm.numCells) → ∀ f : ℕ → Flux,
      (∀ c ∈ l, pm.owned c = true → f (pm.l2o c) = fd (pm.l2o c)) →
      l.foldlM (ceedSourceCell P m slope pm dt src mann fd u) f =
        l.foldlM (sourceCell P m slope pm dt src mann fd u) f
  | [], _, _, f, _ => rfl
  | c :: l, hnd, hlt, f, hf => by
    rw [List.nodup_cons] at hnd
    have hc := hlt c (by simp)
    have hlt' : ∀ c' ∈ l, c' < pm.numCells := fun c' h => hlt c' (by simp [h])
    rw [List.foldlM_cons, List.foldlM_cons]
    by_cases ho : pm.owned c = true
    · have e1 : ceedSourceCell P m slope pm dt src mann fd u f c =
          sourceCell P m slope pm dt src mann fd u f c := by
        unfold ceedSourceCell sourceCell
        rw [if_pos ho, if_pos ho]
        unfold cellRhsCeed
        simp only
        rw [C48_friction m dt _ _ _ _ _ _ ht hm (hu c hc), Option.map_map]
        congr 1
        funext t
        funext j
        have hfc := hf c (by simp) ho
        by_cases hj : j = pm.l2o c
        · subst hj
          simp only [Function.comp, Function.update_self, addAt, if_true, hfc, Flux.add]
          ext <;> simp only <;> ring
        · simp only [Function.comp, Function.update_of_ne hj, addAt, if_neg hj]
      rw [e1]
      cases hs : sourceCell P m slope pm dt src mann fd u f c with
      | none => rfl
      | some f1 =>
        refine sourceFold_eq m slope dt src mann fd u ht hm hu hinj l hnd.2 hlt' f1 ?_
        intro c' hc' ho'
        have hne : pm.l2o c' ≠ pm.l2o c := by
          intro h
          have := hinj c' (hlt' c' hc') c hc ho' ho h
          exact hnd.1 (this ▸ hc')
        rw [← hf c' (by simp [hc']) ho']
        unfold sourceCell at hs
        rw [if_pos ho] at hs
        simp only [Option.map_eq_some_iff] at hs
        obtain ⟨t, -, rfl⟩ := hs
        simp only [addAt, if_neg hne]
    · have e1 : ceedSourceCell P m slope pm dt src mann fd u f c = some f := by
        unfold ceedSourceCell; rw [if_neg ho]
      have e2 : sourceCell P m slope pm dt src mann fd u f c = some f := by
        unfold sourceCell; rw [if_neg ho]
      rw [e1, e2]
      exact sourceFold_eq m slope dt src mann fd u ht hm hu hinj l hnd.2 hlt' f
        (fun c' h => hf c' (by simp [h]))

theorem ceedEdge_eq {P : FlowParams} {pm : PMesh} {u : ℕ → Cons} (hg : 0 < P.g) (ht : 0 < P.tinyH)
    (hown : ∀ c, pm.owned c = true) (hv : EdgesValid pm)
    (hu : ∀ c < pm.numCells, (u c).h ≠ P.tinyH) (e : IEdge) (he : e ∈ pm.internal) (f : ℕ → Flux) :
    ceedEdge P pm u f e = interiorEdge P pm u f e := by
  unfold ceedEdge interiorEdge
  cases hr : e.right with
  | none => rfl
  | some r =>
    simp only
    rw [← C48_interior P.hAnuga (u e.left) (u r) e.sn e.cn hg.le ht (hu _ (hv.left e he))
      (hu _ (hv.right e he r hr)), Option.map_map]
    simp only [addBoth, addOwned_all hown]
    rfl

theorem hrEdge_pair {P : FlowParams} {pm : PMesh} (u : ℕ → Cons) (f : ℕ → Flux) (e : IEdge) (r : ℕ)
    (hr : e.right = some r) (hown : ∀ c, pm.owned c = true) :
    hrEdge P pm u f e = (hrPairPetsc P (pm.zc e.left) (pm.zc r) (u e.left) (u r) e.sn e.cn).map fun F =>
      addAt (addAt f (pm.l2o e.left) (F.1.smul (-e.len / pm.area e.left)))
        (pm.l2o r) (F.2.smul (e.len / pm.area r)) := by
  unfold hrEdge hrPairPetsc
  rw [hr]
  simp only
  by_cases hd : (u r).h < P.tinyH ∧ (u e.left).h < P.tinyH
  · rw [if_pos hd, if_pos hd]
    simp only [Option.map_some, Option.some.injEq]
    funext j
    simp only [addAt, Flux.smul, Flux.add, zero_mul]
    split_ifs <;> ext <;> simp
  · rw [if_neg hd, if_neg hd, Option.map_map]
    congr 1
    funext F
    funext j
    simp only [Function.comp, addBoth, addOwned_all hown, addAt, Flux.smul, Flux.add]
    split_ifs <;> ext <;> simp only <;> ring

theorem ceedEdgeHR_eq {P : FlowParams} {pm : PMesh} {u : ℕ → Cons} (hg : 0 < P.g) (ht : 0 < P.tinyH)
    (hown : ∀ c, pm.owned c = true) (hv : EdgesValid pm)
    (hu : ∀ c < pm.numCells, (u c).h ≠ P.tinyH) (e : IEdge) (he : e ∈ pm.internal)
    (hs : ∀ r, e.right = some r →
      HRSide P (hrState P (pm.zc e.left) (max (pm.zc e.left) (pm.zc r)) (u e.left)) ∧
      HRSide P (hrState P (pm.zc r) (max (pm.zc e.left) (pm.zc r)) (u r))) (f : ℕ → Flux) :
    ceedEdgeHR P pm u f e = hrEdge P pm u f e := by
  cases hr : e.right with
  | none => simp only [ceedEdgeHR, hrEdge, hr]
  | some r =>
    rw [hrEdge_pair u f e r hr hown]
    unfold ceedEdgeHR
    rw [hr]
    simp only
    rw [C48_hr_partial _ _ _ _ _ _ hg.le ht (hu _ (hv.left e he)) (hu _ (hv.right e he r hr))
      (hs r hr).1 (hs r hr).2]

/-- C48 for the whole right-hand side, partial: on one process, for any mesh and any state in which no depth
equals the dry threshold, both backends compute the same right-hand side (and fail for the same states),
with either friction method, with and without hydrostatic reconstruction. Missing: the states for which the
backends are proved to differ — regularised velocities with semi-implicit friction, at outflow boundaries or
with hydrostatic reconstruction; the outflow states excluded in `C48_outflow_partial`; reconstructed sides
that are dry but moving. -/
theorem C48_rhs_partial {P : FlowParams} (m : FrictionMethod) (hr : Bool) {pm : PMesh} (dt : ℝ)
    (src : ℕ → Flux) (mann : ℕ → ℝ) {u : ℕ → Cons} (hg : 0 < P.g) (ht : 0 < P.tinyH)
    (hm : m = .xq2018 ∨ P.hAnuga = 0) (hown : ∀ c, pm.owned c = true) (hv : EdgesValid pm)
    (hinj : OwnedInj pm) (hu : ∀ c < pm.numCells, (u c).h ≠ P.tinyH)
    (hb : ∀ e ∈ pm.boundary, RegularEdge P (u e.cell) e)
    (hs : hr = true → ∀ e ∈ pm.internal, ∀ r, e.right = some r →
      HRSide P (hrState P (pm.zc e.left) (max (pm.zc e.left) (pm.zc r)) (u e.left)) ∧
      HRSide P (hrState P (pm.zc r) (max (pm.zc e.left) (pm.zc r)) (u r))) :
    ceedRhs P m hr pm dt src mann u = rhs P m hr pm dt src mann u := by
  have hbd : ∀ f, pm.boundary.foldlM (ceedBEdge P pm u) f = applyBoundary P pm u f := by
    intro f
    refine foldlM_congr_mem _ ?_ f
    intro e he f
    unfold ceedBEdge boundaryEdge
    rw [if_pos (hown _), ← boundaryFluxCeed_eq hg ht (hu _ (hv.cell e he)) (hb e he), Option.map_map]
    simp only [addOwned_all hown]
    rfl
  have hin : pm.internal.foldlM (if hr then ceedEdgeHR P pm u else ceedEdge P pm u)
      (fun _ => Flux.zero) =
      (if hr then applyInteriorHR P pm u fun _ => Flux.zero
        else applyInterior P pm u fun _ => Flux.zero) := by
    cases hr with
    | false =>
      exact foldlM_congr_mem _ (fun e he f => ceedEdge_eq hg ht hown hv hu e he f) _
    | true =>
      exact foldlM_congr_mem _ (fun e he f => ceedEdgeHR_eq hg ht hown hv hu e he (hs rfl e he) f) _
  unfold ceedRhs ceedDivergence rhs applySource
  rw [hin, Option.bind_assoc]
  congr 1
  funext f1
  rw [hbd]
  congr 1
  funext fd
  exact sourceFold_eq m (!hr) dt src mann fd u ht hm hu hinj _ List.nodup_range
    (fun c h => List.mem_range.1 h) fd (fun _ _ _ => rfl)

/-- two cells with different depths and velocities between walls -/
example : ceedRhs exParams .semiImplicit true (exSquares 0.5) 0.5 (fun _ => ⟨1e-5, 0, 0⟩) (fun _ => 0.03)
      (fun c => if c = 0 then ⟨2, 1, 0⟩ else ⟨1, 0.5, 0.2⟩) =
    rhs exParams .semiImplicit true (exSquares 0.5) 0.5 (fun _ => ⟨1e-5, 0, 0⟩) (fun _ => 0.03)
      (fun c => if c = 0 then ⟨2, 1, 0⟩ else ⟨1, 0.5, 0.2⟩) := by
  refine C48_rhs_partial (P := exParams) .semiImplicit true 0.5 _ _ (by norm_num [exParams])
    (by norm_num [exParams]) (Or.inr rfl) (fun _ => rfl) (exSquares_valid 0.5) (exSquares_inj 0.5) ?_ ?_ ?_
  · intro c _
    by_cases h : c = 0 <;> simp [h, exParams] <;> norm_num
  · intro e he
    simp [exSquares] at he
    rcases he with h | h | h | h | h | h <;> subst h <;> trivial
  · intro _ e he r hr
    simp [exSquares] at he
    subst he
    simp at hr
    subst hr
    exact ⟨Or.inl (by norm_num [exParams, exSquares, hrState]),
      Or.inl (by norm_num [exParams, exSquares, hrState])⟩

end RDy
