import Verif.Model.Tracer
import Verif.Props.Conservation
import Verif.Props.LakeAtRest

/-!
C46, C47 and C64–C67: transport of tracers.
-/

namespace RDy

open Finset

/-! ### Fluxes of the two solvers -/

/-- the flow components of the Roe solver with tracers are those without -/
theorem tracerCombine_flow (g : ℝ) (n : ℕ) (L R : TPrim) (e : RoeEig) (sn cn : ℝ) :
    tracerCombine g n L R e sn cn 0 =
      (roeCombine (sideFlux g L.p sn cn) (sideFlux g R.p sn cn) e sn cn).m ∧
    tracerCombine g n L R e sn cn 1 =
      (roeCombine (sideFlux g L.p sn cn) (sideFlux g R.p sn cn) e sn cn).x ∧
    tracerCombine g n L R e sn cn 2 =
      (roeCombine (sideFlux g L.p sn cn) (sideFlux g R.p sn cn) e sn cn).y := by
  have key : ∀ i < 3, ∑ d ∈ range (3 + n), 0.5 * tracerR e sn cn (tracerChat L R) i d * tracerA e d *
      tracerW e L R d = 0.5 * sweR e sn cn i 0 * e.a1 * e.w1 + 0.5 * sweR e sn cn i 1 * e.a2 * e.w2 +
        0.5 * sweR e sn cn i 2 * e.a3 * e.w3 := by
    intro i hi
    rw [sum_range_add]
    have h0 : ∑ x ∈ range n, 0.5 * tracerR e sn cn (tracerChat L R) i (3 + x) * tracerA e (3 + x) *
        tracerW e L R (3 + x) = 0 := by
      apply sum_eq_zero
      intro x _
      have : tracerR e sn cn (tracerChat L R) i (3 + x) = 0 := by
        unfold tracerR
        rw [if_pos hi, if_neg (by omega)]
      rw [this]; ring
    rw [h0, add_zero]
    simp [sum_range_succ, tracerR, tracerA, tracerW, hi, sweA, sweW]
  refine ⟨?_, ?_, ?_⟩
  · unfold tracerCombine
    rw [key 0 (by norm_num)]
    simp only [tracerSide, roeCombine, sweR, if_true]
    ring
  · unfold tracerCombine
    rw [key 1 (by norm_num)]
    simp only [tracerSide, roeCombine, sweR, one_ne_zero, if_true, if_false]
    ring
  · unfold tracerCombine
    rw [key 2 (by norm_num)]
    simp only [tracerSide, roeCombine, sweR, OfNat.ofNat_ne_zero, OfNat.ofNat_ne_one, if_true, if_false]
    ring

/-- the tracer components of the Roe solver -/
theorem tracerCombine_tracer (g : ℝ) {n : ℕ} (L R : TPrim) (e : RoeEig) (sn cn : ℝ) {j : ℕ}
    (hj : j < n) :
    tracerCombine g n L R e sn cn (3 + j) =
      0.5 * (L.p.h * uperp L.p.u L.p.v sn cn * L.c j + R.p.h * uperp R.p.u R.p.v sn cn * R.c j) -
      0.5 * (tracerChat L R j * (e.a1 * e.w1 + e.a3 * e.w3) + e.a2 *
        ((R.c j * R.p.h - L.c j * L.p.h) - tracerChat L R j * (R.p.h - L.p.h))) := by
  unfold tracerCombine
  rw [sum_range_add]
  have h1 : ∑ x ∈ range n, 0.5 * tracerR e sn cn (tracerChat L R) (3 + j) (3 + x) * tracerA e (3 + x) *
      tracerW e L R (3 + x) = 0.5 * e.a2 *
        ((R.c j * R.p.h - L.c j * L.p.h) - tracerChat L R j * (R.p.h - L.p.h)) := by
    rw [sum_eq_single j]
    · have : tracerR e sn cn (tracerChat L R) (3 + j) (3 + j) = 1 := by
        unfold tracerR
        rw [if_neg (by omega), if_neg (by omega), if_pos rfl]
      rw [this]
      unfold tracerA tracerW
      rw [if_neg (by omega), if_neg (by omega)]
      simp only [Nat.add_sub_cancel_left, sweA]
      ring
    · intro x _ hx
      have : tracerR e sn cn (tracerChat L R) (3 + j) (3 + x) = 0 := by
        unfold tracerR
        rw [if_neg (by omega), if_neg (by omega), if_neg (by omega)]
      rw [this]; ring
    · intro h
      exact absurd (mem_range.mpr hj) h
  rw [h1]
  have h2 : ∑ x ∈ range 3, 0.5 * tracerR e sn cn (tracerChat L R) (3 + j) x * tracerA e x *
      tracerW e L R x = 0.5 * tracerChat L R j * (e.a1 * e.w1 + e.a3 * e.w3) := by
    have hR : ∀ x, tracerR e sn cn (tracerChat L R) (3 + j) x =
        if x = 0 ∨ x = 2 then tracerChat L R j else if x = 3 + j then 1 else 0 := by
      intro x
      unfold tracerR
      rw [if_neg (by omega)]
      simp only [Nat.add_sub_cancel_left]
    simp only [sum_range_succ, sum_range_zero, hR, tracerA, tracerW, sweA, sweW]
    simp
    have : ¬ (1 = 3 + j) := by omega
    rw [if_neg this]
    ring
  rw [h2]
  have hS : ∀ s : TPrim, tracerSide g s sn cn (3 + j) = s.p.h * uperp s.p.u s.p.v sn cn * s.c j := by
    intro s
    unfold tracerSide
    rw [if_neg (by omega), if_neg (by omega), if_neg (by omega)]
    simp
  rw [hS, hS]
  ring

/-- mass flux of the Roe solver -/
theorem roe_mass (g : ℝ) (L R : Prim) (e : RoeEig) (sn cn : ℝ) :
    (roeCombine (sideFlux g L sn cn) (sideFlux g R sn cn) e sn cn).m =
      0.5 * (L.h * uperp L.u L.v sn cn + R.h * uperp R.u R.v sn cn) -
      0.5 * (e.a1 * e.w1 + e.a3 * e.w3) := by
  simp only [roeCombine, sideFlux]
  ring

/-- components of the upwind solver -/
theorem upwindCombine_zero (g : ℝ) (L R : TPrim) (e : RoeEig) (sn cn : ℝ) :
    upwindCombine g L R e sn cn 0 =
      (roeCombine (sideFlux g L.p sn cn) (sideFlux g R.p sn cn) e sn cn).m := rfl

theorem upwindCombine_tracer (g : ℝ) (L R : TPrim) (e : RoeEig) (sn cn : ℝ) (j : ℕ) :
    upwindCombine g L R e sn cn (3 + j) = upwindCombine g L R e sn cn 0 *
      (if upwindCombine g L R e sn cn 0 ≥ 0 then L.c j else R.c j) := by
  have h : ∀ k, upwindCombine g L R e sn cn (3 + k) = upwindCombine g L R e sn cn 0 *
      (if upwindCombine g L R e sn cn 0 ≥ 0 then L.c (3 + k - 3) else R.c (3 + k - 3)) := by
    intro k
    conv_lhs => unfold upwindCombine
    rw [if_neg (by omega), if_neg (by omega), if_neg (by omega)]
    rfl
  rw [h, Nat.add_sub_cancel_left]

/-- Components of the flux, in a form common to both solvers: the tracer flux with its water flux. -/
theorem tracerFlux_some {sv : TSolver} {g : ℝ} {n : ℕ} {L R : TPrim} {sn cn : ℝ} {F : ℕ → ℝ}
    (h : tracerFlux sv g n L R sn cn = some F) :
    ∃ G a, roeFlux g L.p R.p sn cn = some (G, a) ∧ F 0 = G.m ∧ F 1 = G.x ∧ F 2 = G.y := by
  unfold tracerFlux at h
  by_cases hd : RoeDefined L.p.h R.p.h
  · rw [if_pos hd] at h
    unfold roeFlux
    rw [if_pos hd]
    refine ⟨_, _, rfl, ?_⟩
    cases sv with
    | roe =>
      simp only [Option.some.injEq] at h
      rw [← h]
      exact tracerCombine_flow g n L R _ sn cn
    | upwind =>
      simp only [Option.some.injEq] at h
      rw [← h]
      exact ⟨rfl, rfl, rfl⟩
  · rw [if_neg hd] at h
    exact absurd h (by simp)

/-! ### C46 -/

/-- C46. Equal concentrations `C` on both sides: for both solvers and any number of tracers, the flux of the
tracer is `C` times the flux of water. -/
theorem C46_flux {sv : TSolver} {g : ℝ} {n : ℕ} {L R : TPrim} {sn cn : ℝ} {F : ℕ → ℝ} {j : ℕ} {C : ℝ}
    (h : tracerFlux sv g n L R sn cn = some F) (hj : j < n) (hL : L.c j = C) (hR : R.c j = C) :
    F (3 + j) = C * F 0 := by
  unfold tracerFlux at h
  by_cases hd : RoeDefined L.p.h R.p.h
  · rw [if_pos hd] at h
    cases sv with
    | roe =>
      simp only [Option.some.injEq] at h
      have hs := sqrt_sum_pos hd
      have hchat : tracerChat L R j = C := by
        unfold tracerChat roeAvg
        rw [hL, hR, ← add_mul]
        field_simp
      rw [← h, tracerCombine_tracer g L R _ sn cn hj, (tracerCombine_flow g n L R _ sn cn).1, roe_mass,
        hchat, hL, hR]
      ring
    | upwind =>
      simp only [Option.some.injEq] at h
      rw [← h, upwindCombine_tracer, hL, hR, ite_self]
      ring
  · rw [if_neg hd] at h
    exact absurd h (by simp)

example : ∃ F, tracerFlux .roe 9.806 2 ⟨⟨2, 1, -1⟩, fun j => if j = 0 then 0.5 else 3⟩
    ⟨⟨1, 0, 2⟩, fun j => if j = 0 then 0.5 else 7⟩ 0.8 0.6 = some F ∧ F 3 = 0.5 * F 0 := by
  have hd : RoeDefined (2 : ℝ) 1 := ⟨by norm_num, by norm_num, by norm_num⟩
  refine ⟨_, if_pos hd, ?_⟩
  exact C46_flux (sv := .roe) (n := 2) (L := ⟨⟨2, 1, -1⟩, fun j => if j = 0 then 0.5 else 3⟩)
    (R := ⟨⟨1, 0, 2⟩, fun j => if j = 0 then 0.5 else 7⟩) (if_pos hd) (j := 0) (by norm_num)
    (by simp) (by simp)

/-- Water never flows out of an exactly dry side. -/
theorem roe_mass_dry_right (g : ℝ) {L R : Prim} (hL : 0 < L.h) (hR : R.h = 0) (sn cn : ℝ) :
    0 ≤ (roeCombine (sideFlux g L sn cn) (sideFlux g R sn cn) (roeEig g L R sn cn) sn cn).m := by
  have hd : RoeDefined L.h R.h := ⟨le_of_lt hL, by rw [hR], by rw [hR]; linarith⟩
  rw [roe_mass]
  have h1 : |uperp (roeAvg L.h R.h L.u R.u) (roeAvg L.h R.h L.v R.v) sn cn - roeC g L.h R.h| ≤
      (roeEig g L R sn cn).a1 := entropyFix_ge (abs_nonneg _)
  have h3 : |uperp (roeAvg L.h R.h L.u R.u) (roeAvg L.h R.h L.v R.v) sn cn + roeC g L.h R.h| ≤
      (roeEig g L R sn cn).a3 := entropyFix_ge (abs_nonneg _)
  have hw1 : (roeEig g L R sn cn).w1 = -0.5 * L.h := by
    simp only [roeEig, hR, Real.sqrt_zero]; ring
  have hw3 : (roeEig g L R sn cn).w3 = -0.5 * L.h := by
    simp only [roeEig, hR, Real.sqrt_zero]; ring
  have hs : √L.h ≠ 0 := ne_of_gt (Real.sqrt_pos.mpr hL)
  have hau : roeAvg L.h R.h L.u R.u = L.u := by
    unfold roeAvg; rw [hR, Real.sqrt_zero]; field_simp; ring
  have hav : roeAvg L.h R.h L.v R.v = L.v := by
    unfold roeAvg; rw [hR, Real.sqrt_zero]; field_simp; ring
  rw [hau, hav] at h1 h3
  rw [hw1, hw3, hR]
  generalize (roeEig g L R sn cn).a1 = a1 at *
  generalize (roeEig g L R sn cn).a3 = a3 at *
  generalize uperp L.u L.v sn cn = un at *
  generalize roeC g L.h R.h = cc at *
  have hsum : -un ≤ 0.5 * (a1 + a3) := by
    have q1 := neg_abs_le (un - cc)
    have q3 := neg_abs_le (un + cc)
    linarith
  have : 0.5 * (L.h * un + 0 * uperp R.u R.v sn cn) - 0.5 * (a1 * (-0.5 * L.h) + a3 * (-0.5 * L.h)) =
      0.5 * L.h * (un + 0.5 * (a1 + a3)) := by ring
  rw [this]
  apply mul_nonneg (by linarith)
  linarith

theorem roe_mass_swap (g : ℝ) (L R : Prim) (sn cn : ℝ) (hd : RoeDefined L.h R.h) :
    (roeCombine (sideFlux g R (-sn) (-cn)) (sideFlux g L (-sn) (-cn)) (roeEig g R L (-sn) (-cn))
      (-sn) (-cn)) = (roeCombine (sideFlux g L sn cn) (sideFlux g R sn cn) (roeEig g L R sn cn) sn cn).opp := by
  have h := C37_antisymmetric g L R cn sn
  unfold roeFlux at h
  rw [if_pos hd, if_pos (roeDefined_comm.mp hd)] at h
  simp only [Option.map_some, Option.some.injEq, Prod.mk.injEq] at h
  exact h.1

/-- Water never flows out of an exactly dry side (left). -/
theorem roe_mass_dry_left (g : ℝ) {L R : Prim} (hR : 0 < R.h) (hL : L.h = 0) (sn cn : ℝ) :
    (roeCombine (sideFlux g L sn cn) (sideFlux g R sn cn) (roeEig g L R sn cn) sn cn).m ≤ 0 := by
  have hd : RoeDefined L.h R.h := ⟨by rw [hL], le_of_lt hR, by rw [hL]; linarith⟩
  have h := roe_mass_dry_right g hR hL (-sn) (-cn)
  rw [roe_mass_swap g L R sn cn hd] at h
  simp only [Flux.opp] at h
  linarith

/-- A state in which tracer `j` has concentration `C` wherever there is water, and no film thinner than
`tiny_h`. -/
def HasConc (tinyH C : ℝ) (j : ℕ) (s : TCons) : Prop :=
  (s.q.h = 0 ∨ tinyH ≤ s.q.h) ∧ s.hc j = C * s.q.h

/-- the concentration the solver sees -/
theorem velocities_conc {tinyH C : ℝ} {j : ℕ} {s : TCons} (ht : 0 < tinyH) (h : HasConc tinyH C j s) :
    (tracerVelocities tinyH s).p.h = s.q.h ∧
    ((s.q.h = 0 ∧ (tracerVelocities tinyH s).c j = 0) ∨
      (tinyH ≤ s.q.h ∧ (tracerVelocities tinyH s).c j = C)) := by
  unfold tracerVelocities
  rcases h with ⟨h1, h2⟩
  by_cases hd : s.q.h < tinyH
  · rw [if_pos hd]
    refine ⟨rfl, Or.inl ⟨?_, rfl⟩⟩
    rcases h1 with h | h
    · exact h
    · linarith
  · rw [if_neg hd]
    have hd' := not_lt.mp hd
    have : s.q.h ≠ 0 := ne_of_gt (lt_of_lt_of_le ht hd')
    refine ⟨rfl, Or.inr ⟨hd', ?_⟩⟩
    simp only [h2]
    field_simp

/-- Generalisation of `C46_flux`: a side that is exactly dry need not have the
concentration. -/
theorem conc_flux {sv : TSolver} {g : ℝ} {n : ℕ} {L R : TPrim} {sn cn : ℝ} {F : ℕ → ℝ} {j : ℕ} {C : ℝ}
    (h : tracerFlux sv g n L R sn cn = some F) (hj : j < n)
    (hL : (L.p.h = 0 ∧ L.c j = 0) ∨ (0 < L.p.h ∧ L.c j = C))
    (hR : (R.p.h = 0 ∧ R.c j = 0) ∨ (0 < R.p.h ∧ R.c j = C)) :
    F (3 + j) = C * F 0 := by
  rcases hL with ⟨l1, l4⟩ | ⟨l1, l2⟩
  · rcases hR with ⟨r1, r4⟩ | ⟨r1, r2⟩
    · unfold tracerFlux at h
      have : ¬ RoeDefined L.p.h R.p.h := by
        rintro ⟨-, -, h⟩; rw [l1, r1] at h; linarith
      rw [if_neg this] at h
      exact absurd h (by simp)
    · -- left dry
      have hd : RoeDefined L.p.h R.p.h := ⟨by rw [l1], le_of_lt r1, by rw [l1]; linarith⟩
      unfold tracerFlux at h
      rw [if_pos hd] at h
      have hs : √R.p.h ≠ 0 := ne_of_gt (Real.sqrt_pos.mpr r1)
      cases sv with
      | roe =>
        simp only [Option.some.injEq] at h
        have hchat : tracerChat L R j = C := by
          unfold tracerChat roeAvg
          rw [l1, r2, Real.sqrt_zero]
          field_simp
          ring
        rw [← h, tracerCombine_tracer g L R _ sn cn hj, (tracerCombine_flow g n L R _ sn cn).1, roe_mass,
          hchat, l1, l4, r2]
        ring
      | upwind =>
        simp only [Option.some.injEq] at h
        have hm := roe_mass_dry_left g r1 l1 sn cn
        rw [← h, upwindCombine_tracer, l4, r2, upwindCombine_zero]
        rcases lt_or_eq_of_le hm with h1 | h1
        · rw [if_neg (by linarith)]; ring
        · rw [h1]; ring
  · rcases hR with ⟨r1, r4⟩ | ⟨r1, r2⟩
    · -- right dry
      have hd : RoeDefined L.p.h R.p.h := ⟨le_of_lt l1, by rw [r1], by rw [r1]; linarith⟩
      unfold tracerFlux at h
      rw [if_pos hd] at h
      have hs : √L.p.h ≠ 0 := ne_of_gt (Real.sqrt_pos.mpr l1)
      cases sv with
      | roe =>
        simp only [Option.some.injEq] at h
        have hchat : tracerChat L R j = C := by
          unfold tracerChat roeAvg
          rw [r1, l2, Real.sqrt_zero]
          field_simp
          ring
        rw [← h, tracerCombine_tracer g L R _ sn cn hj, (tracerCombine_flow g n L R _ sn cn).1, roe_mass,
          hchat, r1, r4, l2]
        ring
      | upwind =>
        simp only [Option.some.injEq] at h
        have hm := roe_mass_dry_right g l1 r1 sn cn
        rw [← h, upwindCombine_tracer, l2, r4, upwindCombine_zero]
        rw [if_pos hm]; ring
    · exact C46_flux h hj l2 r2

theorem conc_used {sv : TSolver} {P : FlowParams} {n : ℕ} {sL sR : TCons} {sn cn : ℝ} {F : ℕ → ℝ} {j : ℕ}
    {C : ℝ} (ht : 0 < P.tinyH) (hj : j < n) (hL : HasConc P.tinyH C j sL)
    (hR : HasConc P.tinyH C j sR)
    (h : usedTracerFlux sv P.g P.tinyH n (tracerVelocities P.tinyH sL) (tracerVelocities P.tinyH sR)
      sn cn = some F) : F (3 + j) = C * F 0 := by
  unfold usedTracerFlux at h
  obtain ⟨eL, cL⟩ := velocities_conc ht hL
  obtain ⟨eR, cR⟩ := velocities_conc ht hR
  split at h
  · apply conc_flux h hj
    · rcases cL with ⟨a, d⟩ | ⟨a, b⟩
      · left; exact ⟨by rw [eL, a], d⟩
      · right; exact ⟨by rw [eL]; linarith, b⟩
    · rcases cR with ⟨a, d⟩ | ⟨a, b⟩
      · left; exact ⟨by rw [eR, a], d⟩
      · right; exact ⟨by rw [eR]; linarith, b⟩
  · simp only [Option.some.injEq] at h
    rw [← h]; ring

theorem conc_used_reflecting {sv : TSolver} {P : FlowParams} {n : ℕ} {sL : TCons} {sn cn : ℝ}
    {F : ℕ → ℝ} {j : ℕ} {C : ℝ} (ht : 0 < P.tinyH) (hj : j < n)
    (hL : HasConc P.tinyH C j sL)
    (h : usedTracerFlux sv P.g P.tinyH n (tracerVelocities P.tinyH sL)
      (tracerRight P.tinyH .reflecting (tracerVelocities P.tinyH sL) sn cn) sn cn = some F) :
    F (3 + j) = C * F 0 := by
  unfold usedTracerFlux at h
  obtain ⟨eL, cL⟩ := velocities_conc ht hL
  have eR : (tracerRight P.tinyH .reflecting (tracerVelocities P.tinyH sL) sn cn).p.h = sL.q.h := by
    rw [← eL]; rfl
  split at h
  · rename_i hw
    apply conc_flux h hj
    · rcases cL with ⟨a, d⟩ | ⟨a, b⟩
      · left; exact ⟨by rw [eL, a], d⟩
      · right; exact ⟨by rw [eL]; linarith, b⟩
    · rcases cL with ⟨a, d⟩ | ⟨a, b⟩
      · exfalso
        apply hw
        rw [eR, eL, a]
        exact ⟨ht, ht⟩
      · right; exact ⟨by rw [eR]; linarith, b⟩
  · simp only [Option.some.injEq] at h
    rw [← h]; ring

/-- An invariant of every step of a fold is an invariant of the fold. -/
theorem foldlM_inv {α σ : Type} (step : σ → α → Option σ) (I : σ → Prop) :
    ∀ (l : List α) (f f' : σ), (∀ f e f', e ∈ l → I f → step f e = some f' → I f') → I f →
      l.foldlM step f = some f' → I f'
  | [], f, f', _, hI, h => by
      simp at h
      subst h
      exact hI
  | a :: l, f, f', H, hI, h => by
      rw [List.foldlM_cons] at h
      cases hs : step f a with
      | none => rw [hs] at h; simp at h
      | some f1 =>
        rw [hs] at h
        exact foldlM_inv step I l f1 f' (fun f e f'' he => H f e f'' (List.mem_cons_of_mem _ he))
          (H f a f1 (by simp) hI hs) h

theorem addOwnedT_conc {pm : PMesh} {f : ℕ → ℕ → ℝ} {c : ℕ} {F : ℕ → ℝ} {s C : ℝ} {j : ℕ}
    (hF : F (3 + j) = C * F 0) (hf : ∀ i, f i (3 + j) = C * f i 0) :
    ∀ i, addOwnedT pm f c F s i (3 + j) = C * addOwnedT pm f c F s i 0 := by
  intro i
  unfold addOwnedT
  by_cases ho : pm.owned c = true
  · rw [if_pos ho]
    by_cases hi : i = pm.l2o c
    · simp only [if_pos hi, hF, hf]; ring
    · simp only [if_neg hi, hf]
  · rw [if_neg ho, hf]

/-- a boundary condition compatible with concentration `C` of tracer `j` -/
def BCHasConc (tinyH C : ℝ) (j : ℕ) : TBCond → Prop
  | .dirichlet s => HasConc tinyH C j s
  | .reflecting => True

/-- C46. On every mesh, if tracer `j` has the same concentration `C` in all cells with water and in the water
entering through the boundaries, then the flux divergence of the tracer is `C` times that of water in
every cell, for both solvers and any number of tracers. -/
theorem C46_divergence {sv : TSolver} {P : FlowParams} {n : ℕ} {pm : PMesh} {bnd : List TBEdge}
    {u : ℕ → TCons} {f : ℕ → ℕ → ℝ} {j : ℕ} {C : ℝ} (ht : 0 < P.tinyH) (hj : j < n)
    (hv : EdgesValid pm) (hbv : ∀ e ∈ bnd, e.cell < pm.numCells)
    (hu : ∀ c < pm.numCells, HasConc P.tinyH C j (u c)) (hb : ∀ e ∈ bnd, BCHasConc P.tinyH C j e.bc)
    (h : tracerDivergence sv P n pm bnd u = some f) : ∀ i, f i (3 + j) = C * f i 0 := by
  unfold tracerDivergence at h
  rw [Option.bind_eq_some_iff] at h
  obtain ⟨f1, h1, h2⟩ := h
  have i1 : ∀ i, f1 i (3 + j) = C * f1 i 0 := by
    refine foldlM_inv _ (fun f : ℕ → ℕ → ℝ => ∀ i, f i (3 + j) = C * f i 0) pm.internal _ _ ?_ (by simp) h1
    intro f e f' he hf hs
    unfold tracerEdge at hs
    cases hr : e.right with
    | none =>
      rw [hr] at hs
      simp only [Option.some.injEq] at hs
      rw [← hs]; exact hf
    | some r =>
      rw [hr] at hs
      simp only [Option.map_eq_some_iff] at hs
      obtain ⟨F, hF, hs⟩ := hs
      have hc := conc_used ht hj (hu _ (hv.left e he)) (hu _ (hv.right e he r hr)) hF
      rw [← hs]
      exact addOwnedT_conc hc (addOwnedT_conc hc hf)
  refine foldlM_inv _ (fun f : ℕ → ℕ → ℝ => ∀ i, f i (3 + j) = C * f i 0) bnd _ _ ?_ i1 h2
  intro f e f' he hf hs
  unfold tracerBEdge at hs
  by_cases ho : pm.owned e.cell = true
  · rw [if_pos ho] at hs
    simp only [Option.map_eq_some_iff] at hs
    obtain ⟨F, hF, hs⟩ := hs
    have hc : F (3 + j) = C * F 0 := by
      have hbe := hb e he
      cases hbc : e.bc with
      | dirichlet s =>
        rw [hbc] at hbe hF
        exact conc_used ht hj (hu _ (hbv e he)) hbe hF
      | reflecting =>
        rw [hbc] at hF
        exact conc_used_reflecting ht hj (hu _ (hbv e he)) hF
    rw [← hs]
    exact addOwnedT_conc hc hf
  · rw [if_neg ho] at hs
    simp only [Option.some.injEq] at hs
    rw [← hs]; exact hf

/-- One explicit Euler step of transport alone (no erosion, deposition or external sources) on a
distributed mesh. -/
def TransportStep {np : ℕ} (sv : TSolver) (P : FlowParams) (n : ℕ) (pm : Fin np → PMesh)
    (bnd : Fin np → List TBEdge) (gid : Fin np → ℕ → ℕ) (dt : ℝ) (U U' : ℕ → TCons) : Prop :=
  ∀ p, ∃ f, tracerDivergence sv P n (pm p) (bnd p) (fun c => U (gid p c)) = some f ∧
    ∀ c < (pm p).numCells, (pm p).owned c = true →
      (U' (gid p c)).q.h = (U (gid p c)).q.h + dt * f ((pm p).l2o c) 0 ∧
      ∀ j < n, (U' (gid p c)).hc j = (U (gid p c)).hc j + dt * f ((pm p).l2o c) (3 + j)

/-- C46. A uniform concentration stays uniform through any number of transport steps, on any distributed
mesh: as long as no films thinner than `tiny_h` occur, every cell keeps `hc = C h`. -/
theorem C46_stays {np : ℕ} {sv : TSolver} {P : FlowParams} {n : ℕ} {pm : Fin np → PMesh}
    {bnd : Fin np → List TBEdge} {gid : Fin np → ℕ → ℕ} {j : ℕ} {C : ℝ} (ht : 0 < P.tinyH) (hj : j < n)
    (hv : ∀ p, EdgesValid (pm p)) (hbv : ∀ p, ∀ e ∈ bnd p, e.cell < (pm p).numCells)
    (hown : ∀ p, ∀ c < (pm p).numCells, ∃ q, ∃ c' < (pm q).numCells,
      (pm q).owned c' = true ∧ gid q c' = gid p c)
    (hb : ∀ p, ∀ e ∈ bnd p, BCHasConc P.tinyH C j e.bc) (dt : ℕ → ℝ) (U : ℕ → ℕ → TCons) (N : ℕ)
    (hfilm : ∀ i < N, ∀ p, ∀ c < (pm p).numCells, (U i (gid p c)).q.h = 0 ∨ P.tinyH ≤ (U i (gid p c)).q.h)
    (h0 : ∀ p, ∀ c < (pm p).numCells, (U 0 (gid p c)).hc j = C * (U 0 (gid p c)).q.h)
    (h : ∀ i < N, TransportStep sv P n pm bnd gid (dt i) (U i) (U (i + 1))) :
    ∀ p, ∀ c < (pm p).numCells, (U N (gid p c)).hc j = C * (U N (gid p c)).q.h := by
  induction N with
  | zero => exact h0
  | succ N ih =>
    have ih' := ih (fun i hi => hfilm i (Nat.lt_succ_of_lt hi)) fun i hi => h i (Nat.lt_succ_of_lt hi)
    intro p c hc
    obtain ⟨q, c', hc', ho', hgid⟩ := hown p c hc
    rw [← hgid]
    obtain ⟨f, h1, h2⟩ := h N (Nat.lt_succ_self N) q
    have hdiv := C46_divergence (j := j) (C := C) ht hj (hv q) (hbv q)
      (fun c hc => ⟨hfilm N (Nat.lt_succ_self N) q c hc, ih' q c hc⟩) (hb q) h1
    obtain ⟨a1, a2⟩ := h2 c' hc' ho'
    rw [a1, a2 j hj, hdiv, ih' q c' hc']
    ring

/-- two cells, one of them dry -/
example (f : ℕ → ℕ → ℝ)
    (h : tracerDivergence .upwind exParams 1 (exSquares 3) []
      (fun c => if c = 0 then ⟨⟨1, 2, 0⟩, fun _ => 0.5⟩ else ⟨⟨0, 0, 0⟩, fun _ => 0⟩) = some f) :
    f 0 3 = 0.5 * f 0 0 := by
  refine C46_divergence (j := 0) (C := 0.5) (by norm_num [exParams])
    (by norm_num) (exSquares_valid 3) (by simp) ?_ (by simp) h 0
  intro c _
  by_cases hc : c = 0
  · simp only [if_pos hc]
    exact ⟨Or.inr (by norm_num [exParams]), by norm_num⟩
  · simp only [if_neg hc]
    exact ⟨Or.inl rfl, by norm_num⟩

/-- C46 (disagreement). A film thinner than `tiny_h` is treated as free of tracer, so at its edge the Roe
solver moves water with a concentration that occurs nowhere. Here water of concentration 1 is at rest on
both sides; the right cell is a film (depth 1/4, with `tiny_h` 1/2). -/
theorem C46_film_violated (g : ℝ) (hg : 0 < g) :
    ∃ F, usedTracerFlux .roe g (1 / 2) 1 (tracerVelocities (1 / 2) ⟨⟨1, 0, 0⟩, fun _ => 1 * 1⟩)
      (tracerVelocities (1 / 2) ⟨⟨1 / 4, 0, 0⟩, fun _ => 1 * (1 / 4)⟩) 0 1 = some F ∧
      F 3 = 2 / 3 * F 0 ∧ 0 < F 0 := by
  have hL : tracerVelocities (1 / 2) ⟨⟨1, 0, 0⟩, fun _ => 1 * 1⟩ = ⟨⟨1, 0, 0⟩, fun _ => 1⟩ := by
    unfold tracerVelocities
    rw [if_neg (by norm_num)]
    norm_num
  have hR : tracerVelocities (1 / 2) ⟨⟨1 / 4, 0, 0⟩, fun _ => 1 * (1 / 4)⟩ =
      ⟨⟨1 / 4, 0, 0⟩, fun _ => 0⟩ := by
    unfold tracerVelocities
    rw [if_pos (by norm_num)]
  rw [hL, hR]
  have hd : RoeDefined (1 : ℝ) (1 / 4) := ⟨by norm_num, by norm_num, by norm_num⟩
  have h4 : √(1 / 4 : ℝ) = 1 / 2 := by
    rw [show (1 / 4 : ℝ) = (1 / 2) ^ 2 by norm_num, Real.sqrt_sq (by norm_num)]
  have hch : tracerChat ⟨⟨1, 0, 0⟩, fun _ => 1⟩ ⟨⟨1 / 4, 0, 0⟩, fun _ => 0⟩ 0 = 2 / 3 := by
    unfold tracerChat roeAvg
    rw [h4, Real.sqrt_one]
    norm_num
  unfold usedTracerFlux
  rw [if_pos (by norm_num)]
  unfold tracerFlux
  rw [if_pos hd]
  refine ⟨_, rfl, ?_⟩
  have e0 := (tracerCombine_flow g 1 ⟨⟨1, 0, 0⟩, fun _ => 1⟩ ⟨⟨1 / 4, 0, 0⟩, fun _ => 0⟩
    (roeEig g ⟨1, 0, 0⟩ ⟨1 / 4, 0, 0⟩ 0 1) 0 1).1
  rw [roe_mass] at e0
  have e3 := tracerCombine_tracer g (n := 1) ⟨⟨1, 0, 0⟩, fun _ => 1⟩ ⟨⟨1 / 4, 0, 0⟩, fun _ => 0⟩
    (roeEig g ⟨1, 0, 0⟩ ⟨1 / 4, 0, 0⟩ 0 1) 0 1 (j := 0) (by norm_num)
  rw [hch] at e3
  have hu : uperp (0 : ℝ) 0 0 1 = 0 := by unfold uperp; ring
  have hav : roeAvg (1 : ℝ) (1 / 4) 0 0 = 0 := by unfold roeAvg; ring
  have hc : 0 < roeC g 1 (1 / 4) := by
    unfold roeC
    exact Real.sqrt_pos.mpr (by linarith)
  have a1 : roeC g 1 (1 / 4) ≤ (roeEig g ⟨1, 0, 0⟩ ⟨1 / 4, 0, 0⟩ 0 1).a1 := by
    have h : |uperp (roeAvg (1 : ℝ) (1 / 4) 0 0) (roeAvg (1 : ℝ) (1 / 4) 0 0) 0 1 - roeC g 1 (1 / 4)| ≤
      (roeEig g ⟨1, 0, 0⟩ ⟨1 / 4, 0, 0⟩ 0 1).a1 := entropyFix_ge (abs_nonneg _)
    rw [hav, hu, zero_sub, abs_neg, abs_of_pos hc] at h
    exact h
  have a3 : roeC g 1 (1 / 4) ≤ (roeEig g ⟨1, 0, 0⟩ ⟨1 / 4, 0, 0⟩ 0 1).a3 := by
    have h : |uperp (roeAvg (1 : ℝ) (1 / 4) 0 0) (roeAvg (1 : ℝ) (1 / 4) 0 0) 0 1 + roeC g 1 (1 / 4)| ≤
      (roeEig g ⟨1, 0, 0⟩ ⟨1 / 4, 0, 0⟩ 0 1).a3 := entropyFix_ge (abs_nonneg _)
    rw [hav, hu, zero_add, abs_of_pos hc] at h
    exact h
  have a2 : (roeEig g ⟨1, 0, 0⟩ ⟨1 / 4, 0, 0⟩ 0 1).a2 = 0 := by
    simp only [roeEig, hav, hu, abs_zero]
  have w1 : (roeEig g ⟨1, 0, 0⟩ ⟨1 / 4, 0, 0⟩ 0 1).w1 = -3 / 8 := by
    simp only [roeEig, sub_zero, hu]; norm_num
  have w3 : (roeEig g ⟨1, 0, 0⟩ ⟨1 / 4, 0, 0⟩ 0 1).w3 = -3 / 8 := by
    simp only [roeEig, sub_zero, hu]; norm_num
  rw [w1, w3, hu] at e0
  rw [w1, w3, a2, hu] at e3
  refine ⟨?_, ?_⟩
  · rw [e0]
    refine e3.trans ?_
    ring
  · rw [e0]
    linarith

end RDy
