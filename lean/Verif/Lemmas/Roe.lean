import Verif.Model.Roe
import Mathlib.Tactic.Linarith
import Mathlib.Tactic.FieldSimp
import Mathlib.Tactic.LinearCombination
import Mathlib.Tactic.NormNum
import Mathlib.Tactic.Positivity

/-! Facts about the Roe eigenvalues and waves. -/

namespace RDy

theorem le_of_sq_le_sq' {a b : ℝ} (h : a ^ 2 ≤ b ^ 2) (hb : 0 ≤ b) : a ≤ b :=
  le_trans (le_abs_self a) (abs_le_of_sq_le_sq h hb)

theorem entropyFix_ge {a da : ℝ} (ha : 0 ≤ a) : a ≤ entropyFix a da := by
  unfold entropyFix
  split
  · rename_i h
    have hd : 0 < da := lt_of_le_of_lt ha h
    have : a * a / da + da - 2 * a = (a - da) ^ 2 / da := by field_simp; ring
    have h2 : 0 ≤ (a - da) ^ 2 / da := by positivity
    linarith
  · exact le_refl a

theorem entropyFix_nonneg {a da : ℝ} (ha : 0 ≤ a) : 0 ≤ entropyFix a da :=
  le_trans ha (entropyFix_ge ha)

theorem entropyFix_of_le {a da : ℝ} (h : da ≤ a) : entropyFix a da = a := by
  unfold entropyFix
  exact if_neg (not_lt.mpr h)

theorem entropyFix_zero {a : ℝ} (ha : 0 ≤ a) : entropyFix a 0 = a := entropyFix_of_le ha

theorem roeDefined_comm {hl hr : ℝ} : RoeDefined hr hl ↔ RoeDefined hl hr := by
  unfold RoeDefined
  constructor <;> rintro ⟨a, b, c⟩ <;> exact ⟨b, a, by linarith⟩

theorem sqrt_sum_pos {hl hr : ℝ} (h : RoeDefined hl hr) : 0 < √hl + √hr := by
  obtain ⟨h1, h2, h3⟩ := h
  rcases lt_or_eq_of_le h1 with h4 | h4
  · have := Real.sqrt_pos.mpr h4
    have := Real.sqrt_nonneg hr
    linarith
  · have h5 : 0 < hr := by linarith
    have := Real.sqrt_pos.mpr h5
    have := Real.sqrt_nonneg hl
    linarith

theorem roeC_pos {g hl hr : ℝ} (hg : 0 < g) (h : RoeDefined hl hr) : 0 < roeC g hl hr := by
  unfold roeC
  have := h.2.2
  apply Real.sqrt_pos.mpr
  positivity

theorem roeC_sq {g hl hr : ℝ} (hg : 0 < g) (h : RoeDefined hl hr) :
    roeC g hl hr * roeC g hl hr = 0.5 * g * (hl + hr) := by
  unfold roeC
  have := h.2.2
  exact Real.mul_self_sqrt (by positivity)

theorem roeC_comm (g hl hr : ℝ) : roeC g hr hl = roeC g hl hr := by
  unfold roeC
  rw [add_comm]

theorem roeAvg_comm (hl hr a b : ℝ) : roeAvg hr hl b a = roeAvg hl hr a b := by
  unfold roeAvg
  rw [add_comm (√hr * b), add_comm (√hr)]

theorem roeAvg_same {h a : ℝ} (hh : 0 < h) : roeAvg h h a a = a := by
  unfold roeAvg
  have := Real.sqrt_pos.mpr hh
  field_simp

theorem uperp_neg (u v sn cn : ℝ) : uperp u v (-sn) (-cn) = -uperp u v sn cn := by
  unfold uperp
  ring

theorem roe_jump_mass {g : ℝ} {L R : Prim} (sn cn : ℝ) (hg : 0 < g) (h : RoeDefined L.h R.h) :
    (sideFlux g R sn cn).m - (sideFlux g L sn cn).m =
      (uperp (roeAvg L.h R.h L.u R.u) (roeAvg L.h R.h L.v R.v) sn cn - roeC g L.h R.h) *
        (roeEig g L R sn cn).w1 +
      (uperp (roeAvg L.h R.h L.u R.u) (roeAvg L.h R.h L.v R.v) sn cn + roeC g L.h R.h) *
        (roeEig g L R sn cn).w3 := by
  have hS := sqrt_sum_pos h
  have hc := roeC_pos hg h
  have hl : L.h = √L.h * √L.h := (Real.mul_self_sqrt h.1).symm
  have hr : R.h = √R.h * √R.h := (Real.mul_self_sqrt h.2.1).symm
  simp only [sideFlux, roeEig, uperp]
  unfold roeAvg
  generalize roeC g L.h R.h = c at *
  generalize √L.h = sl at *
  generalize √R.h = sr at *
  rw [hl, hr]
  field_simp
  ring

theorem roe_jump_x {g : ℝ} {L R : Prim} {sn cn : ℝ} (hg : 0 < g) (h : RoeDefined L.h R.h)
    (hn : sn ^ 2 + cn ^ 2 = 1) :
    (sideFlux g R sn cn).x - (sideFlux g L sn cn).x =
      (roeAvg L.h R.h L.u R.u - roeC g L.h R.h * cn) *
      (uperp (roeAvg L.h R.h L.u R.u) (roeAvg L.h R.h L.v R.v) sn cn - roeC g L.h R.h) *
        (roeEig g L R sn cn).w1 +
      (-sn) * uperp (roeAvg L.h R.h L.u R.u) (roeAvg L.h R.h L.v R.v) sn cn *
        (roeEig g L R sn cn).w2 +
      (roeAvg L.h R.h L.u R.u + roeC g L.h R.h * cn) *
      (uperp (roeAvg L.h R.h L.u R.u) (roeAvg L.h R.h L.v R.v) sn cn + roeC g L.h R.h) *
        (roeEig g L R sn cn).w3 := by
  have hS := sqrt_sum_pos h
  have hc := roeC_pos hg h
  have hc2 := roeC_sq hg h
  have hl : L.h = √L.h * √L.h := (Real.mul_self_sqrt h.1).symm
  have hr : R.h = √R.h * √R.h := (Real.mul_self_sqrt h.2.1).symm
  have hd : roeC g L.h R.h * (√L.h * √R.h * uperp (R.u - L.u) (R.v - L.v) sn cn / roeC g L.h R.h) =
      √L.h * √R.h * uperp (R.u - L.u) (R.v - L.v) sn cn := by field_simp
  have hU : roeAvg L.h R.h L.u R.u * (√L.h + √R.h) = √L.h * L.u + √R.h * R.u := by
    unfold roeAvg; field_simp
  have hV : roeAvg L.h R.h L.v R.v * (√L.h + √R.h) = √L.h * L.v + √R.h * R.v := by
    unfold roeAvg; field_simp
  have hsn : sn ^ 2 = 1 - cn ^ 2 := by linarith
  simp only [sideFlux, roeEig]
  generalize √L.h * √R.h * uperp (R.u - L.u) (R.v - L.v) sn cn / roeC g L.h R.h = d at *
  simp only [uperp] at *
  generalize roeC g L.h R.h = c at *
  generalize roeAvg L.h R.h L.u R.u = U at *
  generalize roeAvg L.h R.h L.v R.v = V at *
  generalize √L.h = sl at *
  generalize √R.h = sr at *
  have e1 : (U - c * cn) * (U * cn + V * sn - c) * (0.5 * (R.h - L.h - d)) +
      -sn * (U * cn + V * sn) * (sl * sr * (-(R.u - L.u) * sn + (R.v - L.v) * cn)) +
      (U + c * cn) * (U * cn + V * sn + c) * (0.5 * (R.h - L.h + d)) =
      U * (U * cn + V * sn) * (R.h - L.h) + U * (c * d) + cn * (U * cn + V * sn) * (c * d) +
      c * c * cn * (R.h - L.h) -
      sn * (U * cn + V * sn) * (sl * sr * (-(R.u - L.u) * sn + (R.v - L.v) * cn)) := by ring
  rw [e1, hd, hc2]
  have e2 : cn * (U * cn + V * sn) * (sl * sr * ((R.u - L.u) * cn + (R.v - L.v) * sn)) -
      sn * (U * cn + V * sn) * (sl * sr * (-(R.u - L.u) * sn + (R.v - L.v) * cn)) =
      (U * cn + V * sn) * (sl * sr) * (R.u - L.u) := by
    linear_combination ((U * cn + V * sn) * (sl * sr) * (R.u - L.u)) * hsn
  have e3 : R.u * (R.u * cn + R.v * sn) * R.h - L.u * (L.u * cn + L.v * sn) * L.h =
      U * (U * cn + V * sn) * (R.h - L.h) +
      U * (sl * sr * ((R.u - L.u) * cn + (R.v - L.v) * sn)) +
      (U * cn + V * sn) * (sl * sr) * (R.u - L.u) := by
    have hU' : U = (sl * L.u + sr * R.u) / (sl + sr) := by
      rw [eq_div_iff (ne_of_gt hS)]; exact hU
    have hV' : V = (sl * L.v + sr * R.v) / (sl + sr) := by
      rw [eq_div_iff (ne_of_gt hS)]; exact hV
    rw [hU', hV', hl, hr]
    field_simp
    ring
  linear_combination e3 - e2

theorem roe_jump_y {g : ℝ} {L R : Prim} {sn cn : ℝ} (hg : 0 < g) (h : RoeDefined L.h R.h)
    (hn : sn ^ 2 + cn ^ 2 = 1) :
    (sideFlux g R sn cn).y - (sideFlux g L sn cn).y =
      (roeAvg L.h R.h L.v R.v - roeC g L.h R.h * sn) *
      (uperp (roeAvg L.h R.h L.u R.u) (roeAvg L.h R.h L.v R.v) sn cn - roeC g L.h R.h) *
        (roeEig g L R sn cn).w1 +
      cn * uperp (roeAvg L.h R.h L.u R.u) (roeAvg L.h R.h L.v R.v) sn cn *
        (roeEig g L R sn cn).w2 +
      (roeAvg L.h R.h L.v R.v + roeC g L.h R.h * sn) *
      (uperp (roeAvg L.h R.h L.u R.u) (roeAvg L.h R.h L.v R.v) sn cn + roeC g L.h R.h) *
        (roeEig g L R sn cn).w3 := by
  have hS := sqrt_sum_pos h
  have hc := roeC_pos hg h
  have hc2 := roeC_sq hg h
  have hl : L.h = √L.h * √L.h := (Real.mul_self_sqrt h.1).symm
  have hr : R.h = √R.h * √R.h := (Real.mul_self_sqrt h.2.1).symm
  have hd : roeC g L.h R.h * (√L.h * √R.h * uperp (R.u - L.u) (R.v - L.v) sn cn / roeC g L.h R.h) =
      √L.h * √R.h * uperp (R.u - L.u) (R.v - L.v) sn cn := by field_simp
  have hU : roeAvg L.h R.h L.u R.u * (√L.h + √R.h) = √L.h * L.u + √R.h * R.u := by
    unfold roeAvg; field_simp
  have hV : roeAvg L.h R.h L.v R.v * (√L.h + √R.h) = √L.h * L.v + √R.h * R.v := by
    unfold roeAvg; field_simp
  have hsn : sn ^ 2 = 1 - cn ^ 2 := by linarith
  simp only [sideFlux, roeEig]
  generalize √L.h * √R.h * uperp (R.u - L.u) (R.v - L.v) sn cn / roeC g L.h R.h = d at *
  simp only [uperp] at *
  generalize roeC g L.h R.h = c at *
  generalize roeAvg L.h R.h L.u R.u = U at *
  generalize roeAvg L.h R.h L.v R.v = V at *
  generalize √L.h = sl at *
  generalize √R.h = sr at *
  have e1 : (V - c * sn) * (U * cn + V * sn - c) * (0.5 * (R.h - L.h - d)) +
      cn * (U * cn + V * sn) * (sl * sr * (-(R.u - L.u) * sn + (R.v - L.v) * cn)) +
      (V + c * sn) * (U * cn + V * sn + c) * (0.5 * (R.h - L.h + d)) =
      V * (U * cn + V * sn) * (R.h - L.h) + V * (c * d) + sn * (U * cn + V * sn) * (c * d) +
      c * c * sn * (R.h - L.h) +
      cn * (U * cn + V * sn) * (sl * sr * (-(R.u - L.u) * sn + (R.v - L.v) * cn)) := by ring
  rw [e1, hd, hc2]
  have e2 : sn * (U * cn + V * sn) * (sl * sr * ((R.u - L.u) * cn + (R.v - L.v) * sn)) +
      cn * (U * cn + V * sn) * (sl * sr * (-(R.u - L.u) * sn + (R.v - L.v) * cn)) =
      (U * cn + V * sn) * (sl * sr) * (R.v - L.v) := by
    linear_combination ((U * cn + V * sn) * (sl * sr) * (R.v - L.v)) * hsn
  have e3 : R.v * (R.u * cn + R.v * sn) * R.h - L.v * (L.u * cn + L.v * sn) * L.h =
      V * (U * cn + V * sn) * (R.h - L.h) +
      V * (sl * sr * ((R.u - L.u) * cn + (R.v - L.v) * sn)) +
      (U * cn + V * sn) * (sl * sr) * (R.v - L.v) := by
    have hU' : U = (sl * L.u + sr * R.u) / (sl + sr) := by
      rw [eq_div_iff (ne_of_gt hS)]; exact hU
    have hV' : V = (sl * L.v + sr * R.v) / (sl + sr) := by
      rw [eq_div_iff (ne_of_gt hS)]; exact hV
    rw [hU', hV', hl, hr]
    field_simp
    ring
  linear_combination e3 - e2

end RDy
