import Verif.Model.Operator
import Verif.Lemmas.Operator
import Mathlib.Tactic.Linarith
import Mathlib.Tactic.FieldSimp
import Mathlib.Tactic.NormNum
import Mathlib.Tactic.Positivity
import Mathlib.Tactic.LinearCombination

/-!
C44 (semi-implicit friction) and C45 (implicit friction of Xia and Liang, 2018).
-/

namespace RDy

/-! ### Specification -/

/-- Momentum after a time step with friction term `t`, momentum flux divergence `F` and bed-slope term
`b`, without external momentum sources. -/
def stepMomentum (dt q F b t : ℝ) : ℝ := q + dt * (F - b - t)

/-- Manning friction acting on a discharge `q` of magnitude `Q` at depth `h` with roughness `n`:
`g n² h^(-7/3) q |q|`. -/
noncomputable def manning (g n h q Q : ℝ) : ℝ := g * n ^ 2 / h ^ (7 / 3 : ℝ) * q * Q

/-! ### C44 -/

theorem rpow_third_div {h : ℝ} (hh : 0 < h) : h ^ (-(1 : ℝ) / 3) / h = 1 / h ^ (4 / 3 : ℝ) := by
  rw [div_eq_div_iff (ne_of_gt hh) (ne_of_gt (Real.rpow_pos_of_pos hh _)), ← Real.rpow_add hh]
  norm_num

/-- C44. For every wet state, roughness, flux divergence, bed slope and time step, semi-implicit friction
multiplies both components of the predicted momentum by the same factor `k`, `0 < k ≤ 1`, namely
`k = 1 / (1 + dt g n² |u| / h^(4/3))`; without roughness or time step `k = 1`. -/
theorem C44_factor {P : FlowParams} {dt : ℝ} (n : ℝ) (q : Cons) (Fx Fy bx bY : ℝ) (hg : 0 < P.g)
    (ht : 0 < P.tinyH) (hq : P.tinyH ≤ q.h) (hdt : 0 ≤ dt) :
    ∃ k tx ty, frictionSemiImplicit P dt n q Fx Fy bx bY = some (tx, ty) ∧ 0 < k ∧ k ≤ 1 ∧
      k * (1 + dt * (P.g * n ^ 2 * √((q.hu / q.h) ^ 2 + (q.hv / q.h) ^ 2) / q.h ^ (4 / 3 : ℝ))) = 1 ∧
      stepMomentum dt q.hu Fx bx tx = k * (q.hu + dt * (Fx - bx)) ∧
      stepMomentum dt q.hv Fy bY ty = k * (q.hv + dt * (Fy - bY)) ∧
      (n = 0 ∨ dt = 0 → k = 1) := by
  have hh : 0 < q.h := lt_of_lt_of_le ht hq
  unfold frictionSemiImplicit
  rw [if_pos hq]
  have htb : P.g * (n * n) * q.h ^ (-(1 : ℝ) / 3) * √(q.hu / q.h * (q.hu / q.h) +
      q.hv / q.h * (q.hv / q.h)) / q.h =
      P.g * n ^ 2 * √((q.hu / q.h) ^ 2 + (q.hv / q.h) ^ 2) / q.h ^ (4 / 3 : ℝ) := by
    have := rpow_third_div hh
    calc P.g * (n * n) * q.h ^ (-(1 : ℝ) / 3) * √(q.hu / q.h * (q.hu / q.h) +
          q.hv / q.h * (q.hv / q.h)) / q.h
        = P.g * n ^ 2 * √((q.hu / q.h) ^ 2 + (q.hv / q.h) ^ 2) * (q.h ^ (-(1 : ℝ) / 3) / q.h) := by
          rw [sq (q.hu / q.h), sq (q.hv / q.h)]; ring
      _ = _ := by rw [this]; ring
  simp only [htb]
  have h0 : 0 ≤ P.g * n ^ 2 * √((q.hu / q.h) ^ 2 + (q.hv / q.h) ^ 2) / q.h ^ (4 / 3 : ℝ) := by positivity
  have hn0 : n = 0 → P.g * n ^ 2 * √((q.hu / q.h) ^ 2 + (q.hv / q.h) ^ 2) / q.h ^ (4 / 3 : ℝ) = 0 := by
    intro h; rw [h]; simp
  generalize P.g * n ^ 2 * √((q.hu / q.h) ^ 2 + (q.hv / q.h) ^ 2) / q.h ^ (4 / 3 : ℝ) = tb at *
  have h1 : 0 < 1 + dt * tb := by positivity
  have h1' := ne_of_gt h1
  refine ⟨1 / (1 + dt * tb), _, _, if_neg (by rw [not_or]; exact ⟨ne_of_gt hh, h1'⟩), by positivity, ?_,
    ?_, ?_, ?_, ?_⟩
  · rw [div_le_one h1]
    have := mul_nonneg hdt h0
    linarith
  · field_simp
  · unfold stepMomentum
    field_simp
    ring
  · unfold stepMomentum
    field_simp
    ring
  · rintro (h | h)
    · rw [hn0 h]; simp
    · rw [h]; simp

example : ∃ k tx ty, frictionSemiImplicit ⟨9.806, 1e-7, 0, 1e-10⟩ 0.5 0.03 ⟨0.01, 0.02, -0.01⟩ 1 2 0 0 =
    some (tx, ty) ∧ 0 < k ∧ k ≤ 1 ∧ stepMomentum 0.5 0.02 1 0 tx = k * (0.02 + 0.5 * (1 - 0)) := by
  obtain ⟨k, tx, ty, h1, h2, h3, -, h5, -⟩ :=
    C44_factor (P := ⟨9.806, 1e-7, 0, 1e-10⟩) (dt := 0.5) 0.03 ⟨0.01, 0.02, -0.01⟩ 1 2 0 0
      (by norm_num) (by norm_num) (by norm_num) (by norm_num)
  exact ⟨k, tx, ty, h1, h2, h3, h5⟩

/-- C44. On dry cells there is no friction. -/
theorem C44_dry {P : FlowParams} (dt n : ℝ) (q : Cons) (Fx Fy bx bY : ℝ) (hq : q.h < P.tinyH) :
    frictionSemiImplicit P dt n q Fx Fy bx bY = some (0, 0) :=
  if_neg (not_le.mpr hq)

example : frictionSemiImplicit ⟨9.806, 1e-7, 0, 1e-10⟩ 0.5 0.03 ⟨0, 0.02, -0.01⟩ 1 2 0 0 = some (0, 0) :=
  C44_dry _ _ _ _ _ _ _ (by norm_num)

/-! ### C45 -/

/-- The quadratic solved by XQ2018: `k + a k² = 1` has the root computed by the code. -/
theorem xq_root {a : ℝ} (ha : 0 < a) :
    ∃ k, 0 < k ∧ k < 1 ∧ k + a * k ^ 2 = 1 ∧
      ∀ m : ℝ, (m - m * √(1 + 4 * a)) / (-2 * a) = k * m := by
  have h1 : 0 ≤ 1 + 4 * a := by linarith
  have hs : √(1 + 4 * a) * √(1 + 4 * a) = 1 + 4 * a := Real.mul_self_sqrt h1
  have hs1 : 1 < √(1 + 4 * a) := by
    rw [Real.lt_sqrt (by norm_num)]
    linarith
  generalize √(1 + 4 * a) = s at *
  have hs2 : a = (s * s - 1) / 4 := by linarith
  refine ⟨(s - 1) / (2 * a), by apply div_pos <;> linarith, ?_, ?_, ?_⟩
  · rw [div_lt_one (by linarith), hs2]
    nlinarith
  · field_simp
    nlinarith
  · intro m
    field_simp
    ring

theorem xqLambda_eq {P : FlowParams} {n h mx my : ℝ} (hh : 0 < h) :
    xqLambda P n h mx my = P.g * n ^ 2 / h ^ (7 / 3 : ℝ) * √(mx ^ 2 + my ^ 2) := by
  unfold xqLambda
  have e1 : mx / h * (mx / h) + my / h * (my / h) = (mx ^ 2 + my ^ 2) / h ^ 2 := by
    field_simp
  have e2 : √((mx ^ 2 + my ^ 2) / h ^ 2) = √(mx ^ 2 + my ^ 2) / h := by
    rw [Real.sqrt_div (by positivity), Real.sqrt_sq (le_of_lt hh)]
  rw [e1, e2]
  have e3 : h ^ (-(4 : ℝ) / 3) / h = 1 / h ^ (7 / 3 : ℝ) := by
    rw [div_eq_div_iff (ne_of_gt hh) (ne_of_gt (Real.rpow_pos_of_pos hh _)), ← Real.rpow_add hh]
    norm_num
  calc P.g * (n * n) * h ^ (-(4 : ℝ) / 3) * (√(mx ^ 2 + my ^ 2) / h)
      = P.g * n ^ 2 * √(mx ^ 2 + my ^ 2) * (h ^ (-(4 : ℝ) / 3) / h) := by ring
    _ = _ := by rw [e3]; ring

theorem rpow_seven {h : ℝ} (hh : 0 < h) : h ^ (-(7 : ℝ) / 3) = 1 / h ^ (7 / 3 : ℝ) := by
  rw [eq_div_iff (ne_of_gt (Real.rpow_pos_of_pos hh _)), ← Real.rpow_add hh]
  norm_num

/-- the friction term in terms of the discharge used -/
theorem frictionXQ_eq {P : FlowParams} {dt n : ℝ} {q : Cons} {Fx Fy bx bY : ℝ} {s : ℝ × ℝ}
    (hq : P.tinyH ≤ q.h) (hh : 0 < q.h)
    (hs : xqDischarge P dt n q.h (q.hu + (Fx - bx) * dt) (q.hv + (Fy - bY) * dt) = some s) :
    frictionXQ2018 P dt n q Fx Fy bx bY =
      some (manning P.g n q.h s.1 √(s.1 ^ 2 + s.2 ^ 2), manning P.g n q.h s.2 √(s.1 ^ 2 + s.2 ^ 2)) := by
  unfold frictionXQ2018
  rw [if_pos hq, if_neg (ne_of_gt hh), hs]
  simp only [Option.map_some]
  rw [rpow_seven hh]
  unfold manning
  congr 2
  · rw [← sq, ← sq, ← sq]; ring
  · rw [← sq, ← sq, ← sq]; ring

/-- C45. Above the threshold the momentum after the step solves the implicit friction equation exactly,
`m' = m - dt g n² h^(-7/3) m' |m'|` in both components, where `m` is the momentum predicted from the
fluxes and the bed slope; and it is the predicted one times a factor between 0 and 1. -/
theorem C45_implicit {P : FlowParams} {dt n : ℝ} (q : Cons) (Fx Fy bx bY mx my : ℝ)
    (ht : 0 < P.tinyH) (hq : P.tinyH ≤ q.h) (hx : 0 < P.xqThreshold)
    (hmx : mx = q.hu + dt * (Fx - bx)) (hmy : my = q.hv + dt * (Fy - bY))
    (hlam : P.xqThreshold ≤ dt * (P.g * n ^ 2 / q.h ^ (7 / 3 : ℝ) * √(mx ^ 2 + my ^ 2))) :
    ∃ k tx ty, frictionXQ2018 P dt n q Fx Fy bx bY = some (tx, ty) ∧ 0 < k ∧ k < 1 ∧
      (let mx' := stepMomentum dt q.hu Fx bx tx
       let my' := stepMomentum dt q.hv Fy bY ty
       mx' = mx - dt * manning P.g n q.h mx' √(mx' ^ 2 + my' ^ 2) ∧
       my' = my - dt * manning P.g n q.h my' √(mx' ^ 2 + my' ^ 2) ∧
       mx' = k * mx ∧ my' = k * my) := by
  have hh : 0 < q.h := lt_of_lt_of_le ht hq
  have emx : q.hu + (Fx - bx) * dt = mx := by rw [hmx]; ring
  have emy : q.hv + (Fy - bY) * dt = my := by rw [hmy]; ring
  have hlam' := xqLambda_eq (P := P) (n := n) (mx := mx) (my := my) hh
  rw [← hlam'] at hlam
  have ha : 0 < dt * xqLambda P n q.h mx my := lt_of_lt_of_le hx hlam
  obtain ⟨k, hk0, hk1, hk2, hk3⟩ := xq_root ha
  have hs : xqDischarge P dt n q.h (q.hu + (Fx - bx) * dt) (q.hv + (Fy - bY) * dt) =
      some (k * mx, k * my) := by
    rw [emx, emy]
    unfold xqDischarge
    rw [if_neg (not_lt.mpr hlam), if_neg (by nlinarith)]
    rw [← hk3 mx, ← hk3 my]
    have e1 : 4 * dt * xqLambda P n q.h mx my = 4 * (dt * xqLambda P n q.h mx my) := by ring
    have e2 : -2 * dt * xqLambda P n q.h mx my = -2 * (dt * xqLambda P n q.h mx my) := by ring
    rw [e1, e2]
  have hf := frictionXQ_eq hq hh hs
  simp only at hf
  have hmag : √((k * mx) ^ 2 + (k * my) ^ 2) = k * √(mx ^ 2 + my ^ 2) := by
    have : (k * mx) ^ 2 + (k * my) ^ 2 = k ^ 2 * (mx ^ 2 + my ^ 2) := by ring
    rw [this, Real.sqrt_mul (sq_nonneg k), Real.sqrt_sq (le_of_lt hk0)]
  rw [hlam'] at hk2
  have hman : ∀ m : ℝ, dt * manning P.g n q.h (k * m) (k * √(mx ^ 2 + my ^ 2)) = m - k * m := by
    intro m
    unfold manning
    linear_combination m * hk2
  refine ⟨k, _, _, hf, hk0, hk1, ?_⟩
  rw [hmag]
  have hmx' : stepMomentum dt q.hu Fx bx (manning P.g n q.h (k * mx) (k * √(mx ^ 2 + my ^ 2))) =
      k * mx := by
    unfold stepMomentum
    linear_combination -hman mx - hmx
  have hmy' : stepMomentum dt q.hv Fy bY (manning P.g n q.h (k * my) (k * √(mx ^ 2 + my ^ 2))) =
      k * my := by
    unfold stepMomentum
    linear_combination -hman my - hmy
  simp only [hmx', hmy', hmag]
  refine ⟨?_, ?_, trivial, trivial⟩
  · rw [hman]; ring
  · rw [hman]; ring

example : ∃ k tx ty, frictionXQ2018 ⟨9.806, 1e-7, 0, 1e-10⟩ 0.5 0.03 ⟨1, 2, 0⟩ 0 0 0 0 = some (tx, ty) ∧
    0 < k ∧ k < 1 ∧ stepMomentum 0.5 2 0 0 tx = k * 2 := by
  have hs : √((2 : ℝ) ^ 2 + 0 ^ 2) = 2 := by
    have : ((2 : ℝ) ^ 2 + 0 ^ 2) = 2 ^ 2 := by norm_num
    rw [this, Real.sqrt_sq (by norm_num)]
  obtain ⟨k, tx, ty, h1, h2, h3, -, -, h4, -⟩ :=
    C45_implicit (P := ⟨9.806, 1e-7, 0, 1e-10⟩) (dt := 0.5) (n := 0.03) ⟨1, 2, 0⟩ 0 0 0 0 2 0
      (by norm_num) (by norm_num) (by norm_num) (by norm_num) (by norm_num)
      (by simp only [hs, Real.one_rpow]; norm_num)
  exact ⟨k, tx, ty, h1, h2, h3, h4⟩

/-- C45 (below the threshold). There the code takes the predicted momentum in the friction law instead of
solving the equation. If the threshold is at most 1, friction still only reduces the momentum, by the
factor `1 - a` with `a = dt g n² h^(-7/3) |m|`, and the residual of the implicit equation is at most
`2 a² |m|` in each component; without roughness the momentum is the predicted one. -/
theorem C45_below_threshold_partial {P : FlowParams} {dt n : ℝ} (q : Cons) (Fx Fy bx bY mx my a : ℝ)
    (hg : 0 < P.g) (ht : 0 < P.tinyH) (hq : P.tinyH ≤ q.h) (hdt : 0 ≤ dt) (hx1 : P.xqThreshold ≤ 1)
    (hmx : mx = q.hu + dt * (Fx - bx)) (hmy : my = q.hv + dt * (Fy - bY))
    (ha : a = dt * (P.g * n ^ 2 / q.h ^ (7 / 3 : ℝ) * √(mx ^ 2 + my ^ 2)))
    (hlam : a < P.xqThreshold) :
    ∃ tx ty, frictionXQ2018 P dt n q Fx Fy bx bY = some (tx, ty) ∧ 0 < 1 - a ∧ 1 - a ≤ 1 ∧
      (let mx' := stepMomentum dt q.hu Fx bx tx
       let my' := stepMomentum dt q.hv Fy bY ty
       mx' = (1 - a) * mx ∧ my' = (1 - a) * my ∧ (n = 0 → mx' = mx ∧ my' = my) ∧
       |mx' - (mx - dt * manning P.g n q.h mx' √(mx' ^ 2 + my' ^ 2))| ≤ 2 * a ^ 2 * |mx| ∧
       |my' - (my - dt * manning P.g n q.h my' √(mx' ^ 2 + my' ^ 2))| ≤ 2 * a ^ 2 * |my|) := by
  have hh : 0 < q.h := lt_of_lt_of_le ht hq
  have emx : q.hu + (Fx - bx) * dt = mx := by rw [hmx]; ring
  have emy : q.hv + (Fy - bY) * dt = my := by rw [hmy]; ring
  have hlam' := xqLambda_eq (P := P) (n := n) (mx := mx) (my := my) hh
  have ha0 : 0 ≤ a := by rw [ha]; positivity
  have hn0 : n = 0 → a = 0 := by intro h; rw [ha, h]; simp
  have hs : xqDischarge P dt n q.h (q.hu + (Fx - bx) * dt) (q.hv + (Fy - bY) * dt) = some (mx, my) := by
    rw [emx, emy]
    unfold xqDischarge
    rw [if_pos (by rw [hlam', ← ha]; exact hlam)]
  have hf := frictionXQ_eq hq hh hs
  simp only at hf
  have h1a : 0 < 1 - a := by linarith
  have hmx' : stepMomentum dt q.hu Fx bx (manning P.g n q.h mx √(mx ^ 2 + my ^ 2)) = (1 - a) * mx := by
    unfold stepMomentum manning
    linear_combination -hmx + mx * ha
  have hmy' : stepMomentum dt q.hv Fy bY (manning P.g n q.h my √(mx ^ 2 + my ^ 2)) = (1 - a) * my := by
    unfold stepMomentum manning
    linear_combination -hmy + my * ha
  have hmag : √(((1 - a) * mx) ^ 2 + ((1 - a) * my) ^ 2) = (1 - a) * √(mx ^ 2 + my ^ 2) := by
    have : ((1 - a) * mx) ^ 2 + ((1 - a) * my) ^ 2 = (1 - a) ^ 2 * (mx ^ 2 + my ^ 2) := by ring
    rw [this, Real.sqrt_mul (sq_nonneg _), Real.sqrt_sq (le_of_lt h1a)]
  have hres : ∀ m : ℝ, |(1 - a) * m - (m - dt * manning P.g n q.h ((1 - a) * m)
      ((1 - a) * √(mx ^ 2 + my ^ 2)))| ≤ 2 * a ^ 2 * |m| := by
    intro m
    have e : (1 - a) * m - (m - dt * manning P.g n q.h ((1 - a) * m) ((1 - a) * √(mx ^ 2 + my ^ 2))) =
        -(a ^ 2 * (2 - a)) * m := by
      unfold manning
      linear_combination (-(1 - a) ^ 2 * m) * ha
    rw [e, abs_mul, abs_neg, abs_of_nonneg (by nlinarith [sq_nonneg a])]
    apply mul_le_mul_of_nonneg_right _ (abs_nonneg m)
    nlinarith [sq_nonneg a]
  refine ⟨_, _, hf, h1a, by linarith, ?_⟩
  simp only [hmx', hmy', hmag]
  refine ⟨trivial, trivial, ?_, hres mx, hres my⟩
  intro h
  rw [hn0 h]
  constructor <;> ring

example : ∃ tx ty, frictionXQ2018 ⟨9.806, 1e-7, 0, 1e-10⟩ 0.5 0 ⟨1, 2, 0⟩ 0 0 0 0 = some (tx, ty) ∧
    stepMomentum 0.5 2 0 0 tx = 2 := by
  obtain ⟨tx, ty, h1, -, -, -, -, h4, -⟩ :=
    C45_below_threshold_partial (P := ⟨9.806, 1e-7, 0, 1e-10⟩) (dt := 0.5) (n := 0) ⟨1, 2, 0⟩ 0 0 0 0 2 0
      0 (by norm_num) (by norm_num) (by norm_num) (by norm_num) (by norm_num) (by norm_num) (by norm_num)
      (by norm_num) (by norm_num)
  exact ⟨tx, ty, h1, (h4 rfl).1⟩

/-- C45 (disagreement). The threshold is a user setting and is not checked. With a threshold above 1 the
flow can be reversed by friction: here momentum 1 becomes negative. -/
theorem C45_large_threshold_violated :
    ∃ tx ty, frictionXQ2018 ⟨9.806, 1e-7, 0, 20⟩ 1 1 ⟨1, 1, 0⟩ 0 0 0 0 = some (tx, ty) ∧
      stepMomentum 1 1 0 0 tx < 0 := by
  have hh : (0 : ℝ) < 1 := by norm_num
  have hsq : √((1 : ℝ) ^ 2 + 0 ^ 2) = 1 := by norm_num
  have hs : xqDischarge ⟨9.806, 1e-7, 0, 20⟩ 1 1 1 (1 + (0 - 0) * 1) (0 + (0 - 0) * 1) = some (1, 0) := by
    have e1 : (1 : ℝ) + (0 - 0) * 1 = 1 := by norm_num
    have e2 : (0 : ℝ) + (0 - 0) * 1 = 0 := by norm_num
    rw [e1, e2]
    unfold xqDischarge
    rw [if_pos]
    rw [xqLambda_eq hh, hsq, Real.one_rpow]
    norm_num
  have hf := frictionXQ_eq (P := ⟨9.806, 1e-7, 0, 20⟩) (dt := 1) (n := 1) (q := ⟨1, 1, 0⟩) (Fx := 0)
    (Fy := 0) (bx := 0) (bY := 0) (by norm_num) hh hs
  simp only at hf
  refine ⟨_, _, hf, ?_⟩
  unfold stepMomentum manning
  rw [hsq, Real.one_rpow]
  norm_num

/-- C45 (disagreement). With a threshold of 0 or less (the settings turn 0 into `1e-10` but accept
negative values, `/repo/src/yaml_input.c:861-863,910`), still water (or a bed without roughness) leads to
`0/0`, for every wet depth, roughness and time step. -/
theorem C45_zero_threshold_violated {P : FlowParams} (dt n h : ℝ) (hx : P.xqThreshold ≤ 0)
    (hh : P.tinyH ≤ h) : frictionXQ2018 P dt n ⟨h, 0, 0⟩ 0 0 0 0 = none := by
  unfold frictionXQ2018
  rw [if_pos hh]
  simp only
  by_cases h0 : h = 0
  · rw [if_pos h0]
  · rw [if_neg h0]
    have e : xqLambda P n h (0 + (0 - 0) * dt) (0 + (0 - 0) * dt) = 0 := by
      unfold xqLambda; simp
    unfold xqDischarge
    rw [e, if_neg (by rw [mul_zero]; linarith), if_pos (by rw [mul_zero])]
    rfl

example : frictionXQ2018 ⟨9.806, 1e-7, 0, -1⟩ 0.5 0.03 ⟨1, 0, 0⟩ 0 0 0 0 = none :=
  C45_zero_threshold_violated _ _ _ (by norm_num) (by norm_num)

/-! ### The friction term enters the update of its own cell only -/

/-- For an owned cell, the source operator adds its own friction, bed-slope and external terms, whatever
the other cells do. -/
theorem applySource_cell {P : FlowParams} {m : FrictionMethod} {sl : Bool} {pm : PMesh}
    (hinj : OwnedInj pm) {dt : ℝ} {src : ℕ → Flux} {mann : ℕ → ℝ} {fd : ℕ → Flux} {u : ℕ → Cons}
    {f f' : ℕ → Flux} (h : applySource P m sl pm dt src mann fd u f = some f') {c : ℕ}
    (hc : c < pm.numCells) (ho : pm.owned c = true) :
    ∃ t, friction P m dt (mann (pm.l2o c)) (u c) (fd (pm.l2o c)).x (fd (pm.l2o c)).y
        (bedTerm P sl (pm.dzdx c) (pm.dzdy c) (u c).h).1
        (bedTerm P sl (pm.dzdx c) (pm.dzdy c) (u c).h).2 = some t ∧
      f' (pm.l2o c) = (f (pm.l2o c)).add ⟨(src (pm.l2o c)).m,
        -(bedTerm P sl (pm.dzdx c) (pm.dzdy c) (u c).h).1 - t.1 + (src (pm.l2o c)).x,
        -(bedTerm P sl (pm.dzdx c) (pm.dzdy c) (u c).h).2 - t.2 + (src (pm.l2o c)).y⟩ := by
  have key : ∀ (l : List ℕ) (f f' : ℕ → Flux), (∀ x ∈ l, x < pm.numCells) → l.Nodup →
      l.foldlM (sourceCell P m sl pm dt src mann fd u) f = some f' →
      (c ∉ l → f' (pm.l2o c) = f (pm.l2o c)) ∧
      (c ∈ l → ∃ t, friction P m dt (mann (pm.l2o c)) (u c) (fd (pm.l2o c)).x (fd (pm.l2o c)).y
        (bedTerm P sl (pm.dzdx c) (pm.dzdy c) (u c).h).1
        (bedTerm P sl (pm.dzdx c) (pm.dzdy c) (u c).h).2 = some t ∧
      f' (pm.l2o c) = (f (pm.l2o c)).add ⟨(src (pm.l2o c)).m,
        -(bedTerm P sl (pm.dzdx c) (pm.dzdy c) (u c).h).1 - t.1 + (src (pm.l2o c)).x,
        -(bedTerm P sl (pm.dzdx c) (pm.dzdy c) (u c).h).2 - t.2 + (src (pm.l2o c)).y⟩) := by
    intro l
    induction l with
    | nil =>
      intro f f' _ _ h
      simp at h
      subst h
      exact ⟨fun _ => rfl, fun h => by simp at h⟩
    | cons a l ih =>
      intro f f' hl hnd h
      rw [List.foldlM_cons] at h
      cases hs : sourceCell P m sl pm dt src mann fd u f a with
      | none => rw [hs] at h; simp at h
      | some f1 =>
        rw [hs] at h
        have h' : l.foldlM (sourceCell P m sl pm dt src mann fd u) f1 = some f' := h
        obtain ⟨hnot, hin⟩ := ih f1 f' (fun x hx => hl x (List.mem_cons_of_mem _ hx))
          (List.nodup_cons.mp hnd).2 h'
        have ha : a < pm.numCells := hl a (by simp)
        have hother : a ≠ c → f1 (pm.l2o c) = f (pm.l2o c) := by
          intro hac
          unfold sourceCell at hs
          by_cases hoa : pm.owned a = true
          · rw [if_pos hoa] at hs
            simp only [Option.map_eq_some_iff] at hs
            obtain ⟨t, -, ht⟩ := hs
            rw [← ht]
            have : pm.l2o c ≠ pm.l2o a := fun e => hac (hinj c hc a ha ho hoa e).symm
            simp [addAt, this]
          · rw [if_neg hoa] at hs
            simp only [Option.some.injEq] at hs
            rw [hs]
        constructor
        · intro hcl
          rw [List.mem_cons, not_or] at hcl
          rw [hnot hcl.2, hother (Ne.symm hcl.1)]
        · intro hcl
          by_cases hac : a = c
          · subst hac
            have hal := (List.nodup_cons.mp hnd).1
            rw [hnot hal]
            unfold sourceCell at hs
            rw [if_pos ho] at hs
            simp only [Option.map_eq_some_iff] at hs
            obtain ⟨t, ht1, ht2⟩ := hs
            refine ⟨t, ht1, ?_⟩
            rw [← ht2]
            simp [addAt]
          · have hcl' : c ∈ l := by
              rcases List.mem_cons.mp hcl with e | e
              · exact absurd e.symm hac
              · exact e
            obtain ⟨t, h1, h2⟩ := hin hcl'
            exact ⟨t, h1, by rw [h2, hother hac]⟩
  exact (key (List.range pm.numCells) f f' (fun x hx => List.mem_range.mp hx) List.nodup_range h).2
    (List.mem_range.mpr hc)

/-- C44. In one explicit Euler step of the whole operator with semi-implicit friction, the momentum of
every owned wet cell becomes a factor in `(0, 1]` times the prediction from the fluxes `fd` and the bed
slope, plus `dt` times the external momentum source; the depth is not affected by friction. -/
theorem C44_step {P : FlowParams} {sl : Bool} {pm : PMesh} (hinj : OwnedInj pm) {dt : ℝ}
    {src : ℕ → Flux} {mann : ℕ → ℝ} {fd : ℕ → Flux} {u : ℕ → Cons} {f' : ℕ → Flux}
    (h : applySource P .semiImplicit sl pm dt src mann fd u fd = some f') {c : ℕ}
    (hc : c < pm.numCells) (ho : pm.owned c = true) (hg : 0 < P.g) (ht : 0 < P.tinyH)
    (hq : P.tinyH ≤ (u c).h) (hdt : 0 ≤ dt) :
    ∃ k bx bY, 0 < k ∧ k ≤ 1 ∧
      (bx, bY) = bedTerm P sl (pm.dzdx c) (pm.dzdy c) (u c).h ∧
      (u c).hu + dt * (f' (pm.l2o c)).x =
        k * ((u c).hu + dt * ((fd (pm.l2o c)).x - bx)) + dt * (src (pm.l2o c)).x ∧
      (u c).hv + dt * (f' (pm.l2o c)).y =
        k * ((u c).hv + dt * ((fd (pm.l2o c)).y - bY)) + dt * (src (pm.l2o c)).y ∧
      (f' (pm.l2o c)).m = (fd (pm.l2o c)).m + (src (pm.l2o c)).m := by
  obtain ⟨t, ht1, ht2⟩ := applySource_cell hinj h hc ho
  obtain ⟨k, tx, ty, h1, h2, h3, -, h5, h6, -⟩ := C44_factor (P := P) (dt := dt) (mann (pm.l2o c)) (u c)
    (fd (pm.l2o c)).x (fd (pm.l2o c)).y (bedTerm P sl (pm.dzdx c) (pm.dzdy c) (u c).h).1
    (bedTerm P sl (pm.dzdx c) (pm.dzdy c) (u c).h).2 hg ht hq hdt
  have ht1' : frictionSemiImplicit P dt (mann (pm.l2o c)) (u c) (fd (pm.l2o c)).x (fd (pm.l2o c)).y
    (bedTerm P sl (pm.dzdx c) (pm.dzdy c) (u c).h).1
    (bedTerm P sl (pm.dzdx c) (pm.dzdy c) (u c).h).2 = some t := ht1
  rw [h1] at ht1'
  simp only [Option.some.injEq] at ht1'
  subst ht1'
  refine ⟨k, (bedTerm P sl (pm.dzdx c) (pm.dzdy c) (u c).h).1,
    (bedTerm P sl (pm.dzdx c) (pm.dzdy c) (u c).h).2, h2, h3, rfl, ?_, ?_, ?_⟩
  · rw [ht2, ← h5]
    simp only [Flux.add, stepMomentum]
    ring
  · rw [ht2, ← h6]
    simp only [Flux.add, stepMomentum]
    ring
  · rw [ht2]; rfl

/-- a mesh of one cell, for the example -/
noncomputable def exOneCell : PMesh where
  numCells := 1
  area _ := 1
  owned _ := true
  l2o c := c
  internal := []
  boundary := []
  dzdx _ := 0.1
  dzdy _ := 0
  zc _ := 0

example : ∃ f', applySource ⟨9.806, 1e-7, 0, 1e-10⟩ .semiImplicit true exOneCell 0.5
    (fun _ => ⟨0, 0, 0⟩) (fun _ => 0.03) (fun _ => ⟨0, 0, 0⟩) (fun _ => ⟨1, 2, 0⟩)
      (fun _ => ⟨0, 0, 0⟩) = some f' ∧ ∃ k : ℝ, 0 < k ∧ k ≤ 1 ∧
        2 + 0.5 * (f' 0).x = k * (2 + 0.5 * (0 - 0.1 * 9.806 * 1)) := by
  obtain ⟨k, tx, ty, h1, -⟩ := C44_factor (P := ⟨9.806, 1e-7, 0, 1e-10⟩) (dt := 0.5) 0.03 ⟨1, 2, 0⟩
    0 0 (0.1 * 9.806 * 1) (0 * 9.806 * 1) (by norm_num) (by norm_num) (by norm_num) (by norm_num)
  have h : ∃ f', applySource ⟨9.806, 1e-7, 0, 1e-10⟩ .semiImplicit true exOneCell 0.5
      (fun _ => ⟨0, 0, 0⟩) (fun _ => 0.03) (fun _ => ⟨0, 0, 0⟩) (fun _ => ⟨1, 2, 0⟩)
        (fun _ => ⟨0, 0, 0⟩) = some f' := by
    unfold applySource
    simp only [exOneCell, List.range_succ, List.range_zero, List.nil_append, List.foldlM_cons,
      List.foldlM_nil, sourceCell, if_true, bedTerm, friction, h1, Option.map_some]
    exact ⟨_, rfl⟩
  obtain ⟨f', h⟩ := h
  refine ⟨f', h, ?_⟩
  obtain ⟨k, bx, bY, h2, h3, hb, h4, -⟩ := C44_step (fun _ _ _ _ _ _ h => h) h (c := 0)
    (by norm_num [exOneCell]) rfl (by norm_num) (by norm_num) (by norm_num) (by norm_num)
  refine ⟨k, h2, h3, ?_⟩
  have hbx : bx = 0.1 * 9.806 * 1 := by
    have := congrArg Prod.fst hb
    simpa [bedTerm, exOneCell] using this
  rw [hbx] at h4
  simpa [exOneCell] using h4

end RDy
