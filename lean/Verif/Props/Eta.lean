import Verif.Model.Eta
import Verif.Lemmas.Roe
import Mathlib.Analysis.SpecialFunctions.Integrals.Basic
import Mathlib.MeasureTheory.Integral.IntervalIntegral.FundThmCalculus

/-!
Properties of the volume/free-surface relation. C51: the free surface reproduces the mean depth over the bed.
C69: a configuration with `bradford_sanders_2002` is refused where it is not implemented. C70: still water under
that method.
-/

namespace RDy

open intervalIntegral

/-! ### Specification: mean depth over a planar bed

A triangle whose vertices have the elevations `z1`, `z2`, `z3` is parametrised by `(s, t)` with `0 ≤ s`, `0 ≤ t`,
`s + t ≤ 1`; the bed at that point is `z1 + s (z2 - z1) + t (z3 - z1)` and areas are those of the parameters
times twice the area of the triangle. -/

/-- Elevation of the bed. -/
def bed (z1 z2 z3 s t : ℝ) : ℝ := z1 + s * (z2 - z1) + t * (z3 - z1)

/-- Volume of water under the surface `eta` divided by the area of the triangle. -/
noncomputable def meanDepth (z1 z2 z3 eta : ℝ) : ℝ :=
  2 * ∫ s in (0 : ℝ)..1, ∫ t in (0 : ℝ)..(1 - s), max 0 (eta - bed z1 z2 z3 s t)

/-! ### Integrals of the positive part -/

lemma ramp_hasDerivAt (n : ℕ) (x : ℝ) :
    HasDerivAt (fun y : ℝ => max 0 y ^ (n + 2)) ((n + 2) * max 0 x ^ (n + 1)) x := by
  rcases lt_trichotomy x 0 with hx | hx | hx
  · have h : (fun y : ℝ => max 0 y ^ (n + 2)) =ᶠ[nhds x] fun _ => 0 := by
      filter_upwards [Iio_mem_nhds hx] with y hy
      rw [max_eq_left (le_of_lt hy), zero_pow (by omega)]
    rw [max_eq_left hx.le, zero_pow (by omega), mul_zero]
    exact (hasDerivAt_const x (0 : ℝ)).congr_of_eventuallyEq h
  · subst hx
    rw [max_self, zero_pow (by omega), mul_zero]
    have h1 : HasDerivWithinAt (fun y : ℝ => max 0 y ^ (n + 2)) 0 (Set.Iic 0) 0 := by
      refine (hasDerivWithinAt_const (0 : ℝ) (Set.Iic 0) (0 : ℝ)).congr ?_ ?_
      · intro y hy
        rw [max_eq_left hy, zero_pow (by omega)]
      · rw [max_self, zero_pow (by omega)]
    have h2 : HasDerivWithinAt (fun y : ℝ => max 0 y ^ (n + 2)) 0 (Set.Ici 0) 0 := by
      have hp : HasDerivAt (fun y : ℝ => y ^ (n + 2)) 0 0 := by
        have := hasDerivAt_pow (n + 2) (0 : ℝ)
        simpa using this
      refine hp.hasDerivWithinAt.congr ?_ ?_
      · intro y hy
        rw [max_eq_right hy]
      · rw [max_self]
    have := h1.union h2
    rwa [Set.Iic_union_Ici, hasDerivWithinAt_univ] at this
  · have h : (fun y : ℝ => max 0 y ^ (n + 2)) =ᶠ[nhds x] fun y => y ^ (n + 2) := by
      filter_upwards [Ioi_mem_nhds hx] with y hy
      rw [max_eq_right (le_of_lt hy)]
    have hp := hasDerivAt_pow (n + 2) x
    rw [max_eq_right hx.le]
    have e : ((n + 2 : ℕ) : ℝ) * x ^ (n + 2 - 1) = (n + 2) * x ^ (n + 1) := by
      push_cast
      rfl
    rw [e] at hp
    exact hp.congr_of_eventuallyEq h

lemma ramp_integral (n : ℕ) (p r a b : ℝ) (hr : r ≠ 0) :
    ∫ s in a..b, max 0 (p + r * s) ^ (n + 1) =
      (max 0 (p + r * b) ^ (n + 2) - max 0 (p + r * a) ^ (n + 2)) / ((n + 2) * r) := by
  have hd : ∀ s ∈ Set.uIcc a b, HasDerivAt (fun s : ℝ => max 0 (p + r * s) ^ (n + 2) / ((n + 2) * r))
      (max 0 (p + r * s) ^ (n + 1)) s := by
    intro s _
    have h1 : HasDerivAt (fun s : ℝ => p + r * s) r s := by
      simpa using ((hasDerivAt_id s).const_mul r).const_add p
    have h2 := ((ramp_hasDerivAt n (p + r * s)).comp s h1).div_const ((n + 2) * r)
    have e : ((n : ℝ) + 2) * max 0 (p + r * s) ^ (n + 1) * r / ((n + 2) * r) = max 0 (p + r * s) ^ (n + 1) := by
      have : (n : ℝ) + 2 ≠ 0 := by positivity
      field_simp
    rw [e] at h2
    exact h2
  rw [integral_eq_sub_of_hasDerivAt hd]
  · ring
  · apply Continuous.intervalIntegrable
    fun_prop

/-- The inner integral for a bed that rises towards the third vertex. -/
lemma inner_integral {z1 z2 z3 : ℝ} (h : z1 < z3) (eta s : ℝ) :
    ∫ t in (0 : ℝ)..(1 - s), max 0 (eta - bed z1 z2 z3 s t) =
      (max 0 (eta - bed z1 z2 z3 s 0) ^ 2 - max 0 (eta - bed z1 z2 z3 s (1 - s)) ^ 2) / (2 * (z3 - z1)) := by
  have e := ramp_integral 0 (eta - bed z1 z2 z3 s 0) (-(z3 - z1)) 0 (1 - s) (by linarith [h] : _ ≠ _)
  · have e1 : ∀ t, eta - bed z1 z2 z3 s 0 + -(z3 - z1) * t = eta - bed z1 z2 z3 s t := by
      intro t
      unfold bed
      ring
    simp only [e1, zero_add, pow_one] at e
    rw [e]
    have hne : z3 - z1 ≠ 0 := by linarith
    push_cast
    field_simp
    ring

/-- Mean depth where the surface is at or above all vertices. -/
lemma meanDepth_submerged {z1 z2 z3 eta : ℝ} (h1 : z1 ≤ eta) (h2 : z2 ≤ eta) (h3 : z3 ≤ eta) :
    meanDepth z1 z2 z3 eta = eta - (z1 + z2 + z3) / 3 := by
  have hin : ∀ s ∈ Set.uIcc (0 : ℝ) 1, ∫ t in (0 : ℝ)..(1 - s), max 0 (eta - bed z1 z2 z3 s t) =
      (eta - z1 - s * (z2 - z1)) * (1 - s) - (z3 - z1) * ((1 - s) ^ 2 / 2) := by
    intro s hs
    rw [Set.uIcc_of_le (by norm_num)] at hs
    have hc : ∀ t ∈ Set.uIcc (0 : ℝ) (1 - s), max 0 (eta - bed z1 z2 z3 s t) =
        (eta - z1 - s * (z2 - z1)) - (z3 - z1) * t := by
      intro t ht
      rw [Set.uIcc_of_le (by linarith [hs.2])] at ht
      have h0 : 0 ≤ 1 - s - t := by linarith [ht.2]
      have : eta - bed z1 z2 z3 s t =
          (1 - s - t) * (eta - z1) + s * (eta - z2) + t * (eta - z3) := by
        unfold bed
        ring
      rw [max_eq_right]
      · unfold bed
        ring
      · rw [this]
        have a := mul_nonneg h0 (sub_nonneg.mpr h1)
        have b := mul_nonneg hs.1 (sub_nonneg.mpr h2)
        have c := mul_nonneg ht.1 (sub_nonneg.mpr h3)
        linarith
    rw [integral_congr hc, integral_sub (by simp) (by apply Continuous.intervalIntegrable; fun_prop),
      integral_const, integral_const_mul, integral_id]
    simp only [smul_eq_mul]
    ring
  unfold meanDepth
  rw [integral_congr hin]
  have e : ∀ s : ℝ, (eta - z1 - s * (z2 - z1)) * (1 - s) - (z3 - z1) * ((1 - s) ^ 2 / 2) =
      (eta - z1 - (z3 - z1) / 2) + (-(eta - z1) - (z2 - z1) + (z3 - z1)) * s +
        ((z2 - z1) - (z3 - z1) / 2) * s ^ 2 := by
    intro s
    ring
  simp only [e]
  rw [integral_add, integral_add, integral_const, integral_const_mul, integral_const_mul, integral_id,
    integral_pow]
  · simp only [smul_eq_mul]
    norm_num
    ring
  all_goals
    apply Continuous.intervalIntegrable
    fun_prop

/-- Mean depth where only the lowest vertex is under water. -/
lemma meanDepth_one {z1 z2 z3 eta : ℝ} (h12 : z1 < z2) (h23 : z2 ≤ z3) (h1 : z1 ≤ eta) (h2 : eta ≤ z2) :
    meanDepth z1 z2 z3 eta = (eta - z1) ^ 3 / (3 * (z2 - z1) * (z3 - z1)) := by
  have h13 : z1 < z3 := by linarith
  have hin : ∀ s ∈ Set.uIcc (0 : ℝ) 1, ∫ t in (0 : ℝ)..(1 - s), max 0 (eta - bed z1 z2 z3 s t) =
      max 0 ((eta - z1) + -(z2 - z1) * s) ^ (1 + 1) / (2 * (z3 - z1)) := by
    intro s hs
    rw [Set.uIcc_of_le (by norm_num)] at hs
    rw [inner_integral h13]
    have a : max 0 (eta - bed z1 z2 z3 s (1 - s)) = 0 := by
      apply max_eq_left
      have : eta - bed z1 z2 z3 s (1 - s) = s * (eta - z2) + (1 - s) * (eta - z3) := by
        unfold bed
        ring
      rw [this]
      have b := mul_nonneg hs.1 (sub_nonneg.mpr h2)
      have c := mul_nonneg (sub_nonneg.mpr hs.2) (sub_nonneg.mpr (le_trans h2 h23))
      linarith
    have b : eta - bed z1 z2 z3 s 0 = (eta - z1) + -(z2 - z1) * s := by
      unfold bed
      ring
    rw [a, b]
    ring
  unfold meanDepth
  rw [integral_congr hin, integral_div, ramp_integral 1 (eta - z1) (-(z2 - z1)) 0 1 (by linarith [h12] : _ ≠ _)]
  have a : max 0 (eta - z1 + -(z2 - z1) * 1) = 0 := max_eq_left (by linarith)
  have b : max 0 (eta - z1 + -(z2 - z1) * 0) = eta - z1 := by
    rw [mul_zero, add_zero]
    exact max_eq_right (by linarith)
  rw [a, b]
  have hne : z2 - z1 ≠ 0 := by linarith
  have hne' : z3 - z1 ≠ 0 := by linarith
  push_cast
  field_simp
  ring

/-- Mean depth where all but the highest vertex are under water. -/
lemma meanDepth_two {z1 z2 z3 eta : ℝ} (h12 : z1 ≤ z2) (h23 : z2 < z3) (h2 : z2 ≤ eta) (h3 : eta ≤ z3) :
    meanDepth z1 z2 z3 eta =
      eta - (z1 + z2 + z3) / 3 + (z3 - eta) ^ 3 / (3 * (z3 - z1) * (z3 - z2)) := by
  have h13 : z1 < z3 := by linarith
  have hin : ∀ s ∈ Set.uIcc (0 : ℝ) 1, ∫ t in (0 : ℝ)..(1 - s), max 0 (eta - bed z1 z2 z3 s t) =
      ((eta - z1 - s * (z2 - z1)) * (1 - s) - (z3 - z1) * ((1 - s) ^ 2 / 2)) +
      max 0 ((z3 - eta) + -(z3 - z2) * s) ^ (1 + 1) / (2 * (z3 - z1)) := by
    intro s hs
    rw [Set.uIcc_of_le (by norm_num)] at hs
    rw [inner_integral h13]
    have b : max 0 (eta - bed z1 z2 z3 s 0) = eta - z1 - s * (z2 - z1) := by
      have : eta - bed z1 z2 z3 s 0 = (1 - s) * (eta - z1) + s * (eta - z2) := by
        unfold bed
        ring
      rw [max_eq_right]
      · unfold bed
        ring
      · rw [this]
        have b := mul_nonneg hs.1 (sub_nonneg.mpr h2)
        have c := mul_nonneg (sub_nonneg.mpr hs.2) (sub_nonneg.mpr (le_trans h12 h2))
        linarith
    have c : max 0 (eta - bed z1 z2 z3 s (1 - s)) ^ 2 =
        (eta - bed z1 z2 z3 s (1 - s)) ^ 2 - max 0 ((z3 - eta) + -(z3 - z2) * s) ^ 2 := by
      have e : (z3 - eta) + -(z3 - z2) * s = -(eta - bed z1 z2 z3 s (1 - s)) := by
        unfold bed
        ring
      rw [e]
      rcases le_total 0 (eta - bed z1 z2 z3 s (1 - s)) with hp | hn
      · rw [max_eq_right hp, max_eq_left (by linarith)]
        ring
      · rw [max_eq_left hn, max_eq_right (by linarith)]
        ring
    rw [b, c]
    have hne' : z3 - z1 ≠ 0 := by linarith
    unfold bed
    field_simp
    ring
  unfold meanDepth
  rw [integral_congr hin, integral_add, integral_div,
    ramp_integral 1 (z3 - eta) (-(z3 - z2)) 0 1 (by linarith [h23] : _ ≠ _)]
  · have e : ∀ s : ℝ, (eta - z1 - s * (z2 - z1)) * (1 - s) - (z3 - z1) * ((1 - s) ^ 2 / 2) =
        (eta - z1 - (z3 - z1) / 2) + (-(eta - z1) - (z2 - z1) + (z3 - z1)) * s +
          ((z2 - z1) - (z3 - z1) / 2) * s ^ 2 := by
      intro s
      ring
    simp only [e]
    rw [integral_add, integral_add, integral_const, integral_const_mul, integral_const_mul, integral_id,
      integral_pow]
    · have a : max 0 (z3 - eta + -(z3 - z2) * 1) = 0 := max_eq_left (by linarith)
      have b : max 0 (z3 - eta + -(z3 - z2) * 0) = z3 - eta := by
        rw [mul_zero, add_zero]
        exact max_eq_right (by linarith)
      rw [a, b]
      simp only [smul_eq_mul]
      have hne : z3 - z2 ≠ 0 := by linarith
      have hne' : z3 - z1 ≠ 0 := by linarith
      have hz : z2 - z3 ≠ 0 := by linarith
      push_cast
      norm_num
      field_simp
      ring
    all_goals
      apply Continuous.intervalIntegrable
      fun_prop
  all_goals
    apply Continuous.intervalIntegrable
    fun_prop

/-! ### The regimes of the computed surface -/

/-- What the code computes for a wet cell, by regime. -/
lemma etaCell_spec {tinyH z1 z2 z3 h : ℝ} (ht : 0 ≤ tinyH) (h12 : z1 ≤ z2) (h23 : z2 ≤ z3) (hh : tinyH < h) :
    (vfrH3 z1 z2 z3 ≤ h ∧ etaCell tinyH z1 z2 z3 h = (z1 + z2 + z3) / 3 + h) ∨
    (h < vfrH3 z1 z2 z3 ∧ h ≤ vfrH2 z1 z2 z3 ∧ z1 < z2 ∧ z1 < etaCell tinyH z1 z2 z3 h ∧
      etaCell tinyH z1 z2 z3 h ≤ z2 ∧ etaCell tinyH z1 z2 z3 h < z3 ∧
      (etaCell tinyH z1 z2 z3 h - z1) ^ 3 = 3 * h * (z2 - z1) * (z3 - z1)) ∨
    (h < vfrH3 z1 z2 z3 ∧ vfrH2 z1 z2 z3 < h ∧ z2 < z3 ∧ z2 < etaCell tinyH z1 z2 z3 h ∧
      etaCell tinyH z1 z2 z3 h < z3 ∧
      (etaCell tinyH z1 z2 z3 h - z1) ^ 2 + (z3 - z1) * (etaCell tinyH z1 z2 z3 h - z1) =
        (z2 - z1) * (z3 - z1) + 3 * h * (z3 - z1)) := by
  have hpos : 0 < h := lt_of_le_of_lt ht hh
  have e0 : ¬h ≤ tinyH := not_le.mpr hh
  by_cases c3 : h ≥ vfrH3 z1 z2 z3
  · left
    refine ⟨c3, ?_⟩
    unfold etaCell
    rw [if_neg e0, if_pos c3]
  right
  have c3' : h < vfrH3 z1 z2 z3 := not_le.mp c3
  have h13 : z1 < z3 := by
    unfold vfrH3 at c3'
    linarith
  by_cases c2 : h ≤ vfrH2 z1 z2 z3
  · left
    have c2' : 0 < h ∧ h ≤ vfrH2 z1 z2 z3 := ⟨hpos, c2⟩
    have hz : 3 * h * (z3 - z1) ≤ (z2 - z1) * (z2 - z1) ∧ (z2 = z3 → 3 * h < z3 - z1) := by
      by_cases hlt : z2 < z3
      · have : vfrH2 z1 z2 z3 = (z2 - z1) * (z2 - z1) / (3 * (z3 - z1)) := by
          unfold vfrH2
          rw [if_pos hlt]
        rw [this, le_div_iff₀ (by linarith)] at c2
        exact ⟨by linarith, fun he => absurd he hlt.ne⟩
      · have he : z2 = z3 := le_antisymm h23 (not_lt.mp hlt)
        subst he
        unfold vfrH3 at c3'
        refine ⟨?_, fun _ => by linarith⟩
        have : 3 * h ≤ z2 - z1 := by linarith
        exact mul_le_mul_of_nonneg_right this (by linarith)
    have hlt12 : z1 < z2 := by
      rcases lt_or_eq_of_le h12 with hl | he
      · exact hl
      · exfalso
        have := hz.1
        rw [he] at this
        rw [sub_self, mul_zero] at this
        have hp : 0 < 3 * h * (z3 - z2) := by
          have : 0 < z3 - z2 := by linarith
          positivity
        linarith
    have hd2 : 0 < z2 - z1 := by linarith
    have hd3 : 0 < z3 - z1 := by linarith
    have hv : etaCell tinyH z1 z2 z3 h = z1 + (3 * h * (z2 - z1) * (z3 - z1)) ^ (1 / 3 : ℝ) := by
      unfold etaCell
      rw [if_neg e0, if_neg c3, if_pos c2']
    have hw : 0 < 3 * h * (z2 - z1) * (z3 - z1) := by positivity
    have hcube : ((3 * h * (z2 - z1) * (z3 - z1)) ^ (1 / 3 : ℝ)) ^ 3 = 3 * h * (z2 - z1) * (z3 - z1) := by
      rw [← Real.rpow_natCast, ← Real.rpow_mul hw.le]
      norm_num
    have hxpos : 0 < (3 * h * (z2 - z1) * (z3 - z1)) ^ (1 / 3 : ℝ) := Real.rpow_pos_of_pos hw _
    rw [hv]
    generalize (3 * h * (z2 - z1) * (z3 - z1)) ^ (1 / 3 : ℝ) = x at *
    have hle : x ≤ z2 - z1 := by
      have : x ^ 3 ≤ (z2 - z1) ^ 3 := by
        rw [hcube]
        have := mul_le_mul_of_nonneg_right hz.1 hd2.le
        nlinarith only [this]
      exact le_of_pow_le_pow_left₀ (by norm_num) hd2.le this
    have hlt3 : x < z3 - z1 := by
      rcases lt_or_eq_of_le h23 with hl | he
      · linarith
      · have h3 := hz.2 he
        have : x ^ 3 < (z3 - z1) ^ 3 := by
          rw [hcube, he]
          have := mul_lt_mul_of_pos_right h3 (mul_pos hd3 hd3)
          nlinarith only [this]
        exact lt_of_pow_lt_pow_left₀ 3 hd3.le this
    refine ⟨c3', c2, hlt12, by linarith, by linarith, by linarith, ?_⟩
    rw [add_sub_cancel_left]
    exact hcube
  · right
    have c2n : ¬(0 < h ∧ h ≤ vfrH2 z1 z2 z3) := fun hc => c2 hc.2
    have c2' : vfrH2 z1 z2 z3 < h := not_le.mp c2
    have hlt : z2 < z3 := by
      by_contra hn
      have : vfrH2 z1 z2 z3 = vfrH3 z1 z2 z3 := by
        unfold vfrH2
        rw [if_neg hn]
      linarith
    have hd3 : 0 < z3 - z1 := by linarith
    have h2v : vfrH2 z1 z2 z3 = (z2 - z1) * (z2 - z1) / (3 * (z3 - z1)) := by
      unfold vfrH2
      rw [if_pos hlt]
    have k2 : (z2 - z1) * (z2 - z1) < 3 * h * (z3 - z1) := by
      rw [h2v, div_lt_iff₀ (by linarith)] at c2'
      linarith
    have k3 : 3 * h < 2 * (z3 - z1) - (z2 - z1) := by
      unfold vfrH3 at c3'
      linarith
    have hv : etaCell tinyH z1 z2 z3 h = 0.5 * (-vfrB z1 z3 + (vfrB z1 z3 * vfrB z1 z3 -
        4 * vfrC z1 z2 z3 h) ^ (0.5 : ℝ)) := by
      unfold etaCell
      rw [if_neg e0, if_neg c3, if_neg c2n, if_pos ⟨c2', c3'⟩]
    have hdisc : vfrB z1 z3 * vfrB z1 z3 - 4 * vfrC z1 z2 z3 h =
        (z3 - z1) ^ 2 + 4 * (z2 - z1) * (z3 - z1) + 12 * h * (z3 - z1) := by
      unfold vfrB vfrC
      ring
    have hsq : ((z3 - z1) ^ 2 + 4 * (z2 - z1) * (z3 - z1) + 12 * h * (z3 - z1)) ^ (0.5 : ℝ) =
        √((z3 - z1) ^ 2 + 4 * (z2 - z1) * (z3 - z1) + 12 * h * (z3 - z1)) := by
      rw [Real.sqrt_eq_rpow]
      norm_num
    rw [hdisc, hsq] at hv
    have hD : 0 ≤ (z3 - z1) ^ 2 + 4 * (z2 - z1) * (z3 - z1) + 12 * h * (z3 - z1) := by
      have a := mul_nonneg (sub_nonneg.mpr h12) hd3.le
      have b := mul_pos hpos hd3
      nlinarith only [a, b, sq_nonneg (z3 - z1)]
    have hyy := Real.sq_sqrt hD
    have hlo : (z3 - z1) + 2 * (z2 - z1) < √((z3 - z1) ^ 2 + 4 * (z2 - z1) * (z3 - z1) + 12 * h * (z3 - z1)) := by
      apply Real.lt_sqrt_of_sq_lt
      nlinarith only [k2]
    have hhi : √((z3 - z1) ^ 2 + 4 * (z2 - z1) * (z3 - z1) + 12 * h * (z3 - z1)) < 3 * (z3 - z1) := by
      rw [Real.sqrt_lt' (by linarith)]
      have := mul_lt_mul_of_pos_right k3 hd3
      nlinarith only [this]
    generalize √((z3 - z1) ^ 2 + 4 * (z2 - z1) * (z3 - z1) + 12 * h * (z3 - z1)) = y at *
    have hv' : etaCell tinyH z1 z2 z3 h = z1 + (y - (z3 - z1)) / 2 := by
      rw [hv]
      unfold vfrB
      ring
    rw [hv']
    refine ⟨c3', c2', hlt, by linarith, by linarith, ?_⟩
    nlinarith only [hyy]

/-! ### C51 -/

/-- C51 (outside the range between the two higher vertices): the water under the computed surface is the
water of the cell. Missing: surfaces strictly between the second and the third vertex, where this is false
(`C51_two_vertices_violated`). -/
theorem C51_reproduces_partial {tinyH z1 z2 z3 h : ℝ} (ht : 0 ≤ tinyH) (h12 : z1 ≤ z2) (h23 : z2 ≤ z3)
    (hh : tinyH < h) (hr : etaCell tinyH z1 z2 z3 h ≤ z2 ∨ z3 ≤ etaCell tinyH z1 z2 z3 h) :
    meanDepth z1 z2 z3 (etaCell tinyH z1 z2 z3 h) = h := by
  have hpos : 0 < h := lt_of_le_of_lt ht hh
  rcases etaCell_spec ht h12 h23 hh with ⟨a, b⟩ | ⟨a, b, c, d, e, f, g⟩ | ⟨a, b, c, d, e, f⟩
  · have h3 : z3 ≤ etaCell tinyH z1 z2 z3 h := by
      rw [b]
      unfold vfrH3 at a
      linarith
    rw [meanDepth_submerged (by linarith) (by linarith) h3, b]
    ring
  · rw [meanDepth_one c h23 d.le e, g]
    have : 0 < z2 - z1 := by linarith
    have : 0 < z3 - z1 := by linarith
    field_simp
  · exfalso
    rcases hr with h | h <;> linarith

/-- A cell with elevations 0, 1, 2 and mean depth 2 has the surface 3. -/
example : meanDepth 0 1 2 (etaCell 1e-7 0 1 2 2) = 2 ∧ etaCell 1e-7 0 1 2 2 = 3 := by
  have h : etaCell 1e-7 0 1 2 2 = 3 := by
    norm_num [etaCell, vfrH3]
  exact ⟨C51_reproduces_partial (by norm_num) (by norm_num) (by norm_num) (by norm_num)
    (Or.inr (by rw [h]; norm_num)), h⟩

/-- C51 (between the two higher vertices): there the water under the computed surface is not more than the
water of the cell, and falls short by at most 4/81 of the square of the difference of the two higher
elevations divided by the largest difference of elevations. -/
theorem C51_two_vertices_partial {tinyH z1 z2 z3 h : ℝ} (ht : 0 ≤ tinyH) (h12 : z1 ≤ z2) (h23 : z2 ≤ z3)
    (hh : tinyH < h) (hr : z2 < etaCell tinyH z1 z2 z3 h ∧ etaCell tinyH z1 z2 z3 h < z3) :
    h - 4 / 81 * ((z3 - z2) ^ 2 / (z3 - z1)) ≤ meanDepth z1 z2 z3 (etaCell tinyH z1 z2 z3 h) ∧
    meanDepth z1 z2 z3 (etaCell tinyH z1 z2 z3 h) ≤ h := by
  rcases etaCell_spec ht h12 h23 hh with ⟨a, b⟩ | ⟨a, b, c, d, e, f, g⟩ | ⟨a, b, c, d, e, f⟩
  · exfalso
    unfold vfrH3 at a
    rw [b] at hr
    linarith [hr.2]
  · exfalso
    linarith [hr.1]
  · rw [meanDepth_two h12 c d.le e.le]
    generalize etaCell tinyH z1 z2 z3 h = η at *
    have hD : 0 < z3 - z2 := by linarith
    have hd : 0 < z3 - z1 := by linarith
    have hy0 : 0 ≤ z3 - η := by linarith
    have hyD : z3 - η ≤ z3 - z2 := by linarith
    -- the depth of the cell in terms of the surface
    have hdep : h = η - (z1 + z2 + z3) / 3 + (z3 - η) ^ 2 / (3 * (z3 - z1)) := by
      field_simp
      nlinarith only [f]
    have hdiff : h - (η - (z1 + z2 + z3) / 3 + (z3 - η) ^ 3 / (3 * (z3 - z1) * (z3 - z2))) =
        (z3 - η) ^ 2 * ((z3 - z2) - (z3 - η)) / (3 * (z3 - z1) * (z3 - z2)) := by
      rw [hdep]
      field_simp
      ring
    constructor
    · have hmax : (z3 - η) ^ 2 * ((z3 - z2) - (z3 - η)) ≤ 4 / 27 * (z3 - z2) ^ 3 := by
        generalize z3 - η = y at *
        generalize z3 - z2 = D at *
        have : 4 / 27 * D ^ 3 - y ^ 2 * (D - y) = (y - 2 / 3 * D) ^ 2 * (y + D / 3) := by ring
        have h2 : 0 ≤ (y - 2 / 3 * D) ^ 2 * (y + D / 3) := mul_nonneg (sq_nonneg _) (by linarith)
        linarith
      have hb : (z3 - η) ^ 2 * ((z3 - z2) - (z3 - η)) / (3 * (z3 - z1) * (z3 - z2)) ≤
          4 / 27 * (z3 - z2) ^ 3 / (3 * (z3 - z1) * (z3 - z2)) :=
        div_le_div_of_nonneg_right hmax (by positivity)
      have hc : 4 / 27 * (z3 - z2) ^ 3 / (3 * (z3 - z1) * (z3 - z2)) =
          4 / 81 * ((z3 - z2) ^ 2 / (z3 - z1)) := by
        field_simp
        ring
      linarith
    · have : 0 ≤ (z3 - η) ^ 2 * ((z3 - z2) - (z3 - η)) / (3 * (z3 - z1) * (z3 - z2)) := by
        apply div_nonneg
        · exact mul_nonneg (sq_nonneg _) (by linarith)
        · positivity
      linarith

lemma eta_witness : etaCell 1e-7 0 0 1 (1 / 4) = 1 / 2 := by
  have h3 : vfrH3 0 0 1 = 2 / 3 := by norm_num [vfrH3]
  have h2 : vfrH2 0 0 1 = 0 := by norm_num [vfrH2]
  have hs : ((4 : ℝ)) ^ (0.5 : ℝ) = 2 := by
    have e : (4 : ℝ) = 2 ^ (2 : ℝ) := by norm_num
    rw [e, ← Real.rpow_mul (by norm_num)]
    norm_num
  have hb : vfrB 0 1 * vfrB 0 1 - 4 * vfrC 0 0 1 (1 / 4) = 4 := by norm_num [vfrB, vfrC]
  have n1 : ¬((1 / 4 : ℝ) ≤ 1e-7) := by norm_num
  have n2 : ¬((1 / 4 : ℝ) ≥ 2 / 3) := by norm_num
  have n3 : ¬(0 < (1 / 4 : ℝ) ∧ (1 / 4 : ℝ) ≤ 0) := by norm_num
  have n4 : (0 : ℝ) < 1 / 4 ∧ (1 / 4 : ℝ) < 2 / 3 := by norm_num
  unfold etaCell
  rw [if_neg n1, h3, if_neg n2, h2, if_neg n3, if_pos n4, hb, hs]
  norm_num [vfrB]

example : meanDepth 0 0 1 (etaCell 1e-7 0 0 1 (1 / 4)) ≤ 1 / 4 :=
  (C51_two_vertices_partial (by norm_num) (by norm_num) (by norm_num) (by norm_num)
    (by rw [eta_witness]; norm_num)).2

/-- In a cell with elevations 0, 0, 1 and mean depth 1/4 the computed surface is 1/2. -/
example : (0 : ℝ) < etaCell 1e-7 0 0 1 (1 / 4) ∧ etaCell 1e-7 0 0 1 (1 / 4) < 1 := by
  rw [eta_witness]
  norm_num

/-- C51 does not hold for surfaces between the two higher vertices: there the code inverts a quadratic where
the volume is a cubic. In a cell with elevations 0, 0, 1 and mean depth 1/4 the computed surface is 1/2, below
which there is only 5/24 of water. -/
theorem C51_two_vertices_violated :
    etaCell 1e-7 0 0 1 (1 / 4) = 1 / 2 ∧ meanDepth 0 0 1 (1 / 2) = 5 / 24 := by
  refine ⟨eta_witness, ?_⟩
  rw [meanDepth_two (by norm_num) (by norm_num) (by norm_num) (by norm_num)]
  norm_num

/-- C51 (inverse): a surface that meets the bed below the second vertex or covers the cell is recovered from
the water below it. -/
theorem C51_recovers_partial {tinyH z1 z2 z3 eta : ℝ} (ht : 0 ≤ tinyH) (h12 : z1 ≤ z2) (h23 : z2 ≤ z3)
    (hr : (z1 < eta ∧ eta ≤ z2) ∨ z3 ≤ eta) (hw : tinyH < meanDepth z1 z2 z3 eta) :
    etaCell tinyH z1 z2 z3 (meanDepth z1 z2 z3 eta) = eta := by
  by_cases hs : z3 ≤ eta
  · have hm := meanDepth_submerged (z1 := z1) (z2 := z2) (z3 := z3) (eta := eta) (by linarith) (by linarith) hs
    rcases etaCell_spec ht h12 h23 hw with ⟨a, b⟩ | ⟨a, b⟩ | ⟨a, b⟩
    · rw [b, hm]
      ring
    · exfalso
      rw [hm] at a
      unfold vfrH3 at a
      linarith
    · exfalso
      rw [hm] at a
      unfold vfrH3 at a
      linarith
  · have hs' : eta < z3 := not_le.mp hs
    obtain ⟨hlo, hhi⟩ := hr.resolve_right hs
    have hz : z1 < z2 := by linarith
    have hm := meanDepth_one hz h23 hlo.le hhi
    have hd2 : 0 < z2 - z1 := by linarith
    have hd3 : 0 < z3 - z1 := by linarith
    have hx : 0 < eta - z1 := by linarith
    generalize meanDepth z1 z2 z3 eta = h at *
    have hm' : 3 * h * (z2 - z1) * (z3 - z1) = (eta - z1) ^ 3 := by
      rw [hm]
      field_simp
    -- the depth is at most `h2`
    have hle : 3 * h * (z3 - z1) ≤ (z2 - z1) * (z2 - z1) := by
      have c : (eta - z1) ^ 3 ≤ (z2 - z1) ^ 3 := pow_le_pow_left₀ hx.le (by linarith) 3
      rw [← hm'] at c
      by_contra hn
      have := mul_lt_mul_of_pos_right (not_le.mp hn) hd2
      nlinarith only [c, this]
    rcases etaCell_spec ht h12 h23 hw with ⟨a, b⟩ | ⟨a, b, c, d, e, f, g⟩ | ⟨a, b, c, d, e, f⟩
    · exfalso
      unfold vfrH3 at a
      have a' : 2 * (z3 - z1) - (z2 - z1) ≤ 3 * h := by linarith
      have a2 := mul_le_mul_of_nonneg_right a' hd3.le
      rcases lt_or_eq_of_le h23 with hl | he
      · have : 0 < (z3 - z2) * (2 * (z3 - z1) + (z2 - z1)) := by
          have : 0 < z3 - z2 := by linarith
          positivity
        nlinarith only [a2, hle, this]
      · subst he
        have c : (eta - z1) ^ 3 < (z2 - z1) ^ 3 := pow_lt_pow_left₀ (by linarith) hx.le (by norm_num)
        rw [← hm'] at c
        have := mul_le_mul_of_nonneg_right a2 hd2.le
        nlinarith only [c, this]
    · rw [hm'] at g
      have := (pow_left_inj₀ (by linarith) hx.le (by norm_num)).mp g
      linarith
    · exfalso
      have : vfrH2 z1 z2 z3 = (z2 - z1) * (z2 - z1) / (3 * (z3 - z1)) := by
        unfold vfrH2
        rw [if_pos c]
      rw [this, div_lt_iff₀ (by linarith)] at b
      linarith

/-- With elevations 0, 1, 2 and the surface at 1/2 the mean depth is 1/48, and the surface is recovered from it. -/
example : etaCell 1e-7 0 1 2 (1 / 48) = 1 / 2 := by
  have h : meanDepth 0 1 2 (1 / 2) = 1 / 48 := by
    rw [meanDepth_one (by norm_num) (by norm_num) (by norm_num) (by norm_num)]
    norm_num
  have := C51_recovers_partial (tinyH := 1e-7) (z1 := 0) (z2 := 1) (z3 := 2) (eta := 1 / 2) (by norm_num)
    (by norm_num) (by norm_num) (Or.inl (by norm_num)) (by rw [h]; norm_num)
  rwa [h] at this

/-- C51 (position): the computed surface is never below the lowest vertex, strictly above it if the cell is
wet, and equal to it if the cell is dry. -/
theorem C51_above {tinyH z1 z2 z3 h : ℝ} (ht : 0 ≤ tinyH) (h12 : z1 ≤ z2) (h23 : z2 ≤ z3) :
    (h ≤ tinyH → etaCell tinyH z1 z2 z3 h = z1) ∧ (tinyH < h → z1 < etaCell tinyH z1 z2 z3 h) := by
  constructor
  · intro hd
    unfold etaCell
    rw [if_pos hd]
  · intro hw
    rcases etaCell_spec ht h12 h23 hw with ⟨a, b⟩ | ⟨a, b, c, d, _⟩ | ⟨a, b, c, d, _⟩
    · rw [b]
      linarith
    · exact d
    · linarith

example : (0 : ℝ) < etaCell 1e-7 0 1 2 (1 / 48) := (C51_above (by norm_num) (by norm_num) (by norm_num)).2 (by norm_num)

/-- C51 (monotone): more water means a higher surface, strictly as soon as the cell is wet. -/
theorem C51_monotone {tinyH z1 z2 z3 h h' : ℝ} (ht : 0 ≤ tinyH) (h12 : z1 ≤ z2) (h23 : z2 ≤ z3) (hlt : h < h') :
    etaCell tinyH z1 z2 z3 h ≤ etaCell tinyH z1 z2 z3 h' ∧
    (tinyH < h' → etaCell tinyH z1 z2 z3 h < etaCell tinyH z1 z2 z3 h') := by
  have strict : tinyH < h' → etaCell tinyH z1 z2 z3 h < etaCell tinyH z1 z2 z3 h' := by
    intro hw'
    by_cases hd : h ≤ tinyH
    · rw [(C51_above ht h12 h23).1 hd]
      exact (C51_above ht h12 h23).2 hw'
    have hw : tinyH < h := not_le.mp hd
    rcases etaCell_spec ht h12 h23 hw with ⟨a, b⟩ | ⟨a, b, c, d, e, f, g⟩ | ⟨a, b, c, d, e, f⟩
    · rcases etaCell_spec ht h12 h23 hw' with ⟨a', b'⟩ | ⟨a', _⟩ | ⟨a', _⟩
      · rw [b, b']
        linarith
      · linarith
      · linarith
    · rcases etaCell_spec ht h12 h23 hw' with ⟨a', b'⟩ | ⟨a', b', c', d', e', f', g'⟩ | ⟨a', b', c', d', e', f'⟩
      · rw [b']
        unfold vfrH3 at a'
        linarith
      · have hd2 : 0 < z2 - z1 := by linarith
        have hd3 : 0 < z3 - z1 := by linarith
        have : (etaCell tinyH z1 z2 z3 h - z1) ^ 3 < (etaCell tinyH z1 z2 z3 h' - z1) ^ 3 := by
          rw [g, g']
          have := mul_lt_mul_of_pos_right hlt (mul_pos hd2 hd3)
          nlinarith only [this]
        have := lt_of_pow_lt_pow_left₀ 3 (by linarith) this
        linarith
      · linarith
    · rcases etaCell_spec ht h12 h23 hw' with ⟨a', b'⟩ | ⟨a', b', c', d', e', f', g'⟩ | ⟨a', b', c', d', e', f'⟩
      · rw [b']
        unfold vfrH3 at a'
        linarith
      · linarith
      · have hd3 : 0 < z3 - z1 := by linarith
        have hq := mul_lt_mul_of_pos_right hlt hd3
        by_contra hn
        have hn' := not_lt.mp hn
        have k1 : 0 ≤ etaCell tinyH z1 z2 z3 h' - z1 := by linarith
        have k2 := mul_le_mul_of_nonneg_left (sub_le_sub_right hn' z1) hd3.le
        have k3 := pow_le_pow_left₀ k1 (sub_le_sub_right hn' z1) 2
        linarith
  refine ⟨?_, strict⟩
  by_cases hd : h' ≤ tinyH
  · rw [(C51_above ht h12 h23).1 hd, (C51_above ht h12 h23).1 (by linarith)]
  · exact (strict (not_le.mp hd)).le

example : etaCell 1e-7 0 0 1 (1 / 4) < etaCell 1e-7 0 0 1 1 :=
  (C51_monotone (by norm_num) (by norm_num) (by norm_num) (by norm_num)).2 (by norm_num)

/-- C51 (sorting): the three elevations reach the formula in ascending order, and they are the same three. -/
theorem C51_sort (a b c : ℝ) :
    (sort3 a b c).1 ≤ (sort3 a b c).2.1 ∧ (sort3 a b c).2.1 ≤ (sort3 a b c).2.2 ∧
    [(sort3 a b c).1, (sort3 a b c).2.1, (sort3 a b c).2.2].Perm [a, b, c] := by
  unfold sort3
  by_cases h1 : a > b
  · by_cases h2 : a > c
    · by_cases h3 : b > c
      · simp only [h1, h2, h3, if_true]
        refine ⟨h3.le, h1.le, ?_⟩
        exact ((List.Perm.swap b c [a]).trans ((List.Perm.swap a c []).cons b)).trans (List.Perm.swap a b [c])
      · simp only [h1, h2, h3, if_true, if_false]
        refine ⟨not_lt.mp h3, h2.le, ?_⟩
        exact ((List.Perm.swap a c []).cons b).trans (List.Perm.swap a b [c])
    · have h3 : ¬b > a := by linarith
      simp only [h1, h2, h3, if_true, if_false]
      refine ⟨by linarith, by linarith, ?_⟩
      exact List.Perm.swap a b [c]
  · by_cases h2 : b > c
    · by_cases h3 : a > c
      · simp only [h1, h2, h3, if_true, if_false]
        refine ⟨by linarith, by linarith, ?_⟩
        exact (List.Perm.swap a c [b]).trans ((List.Perm.swap b c []).cons a)
      · simp only [h1, h2, h3, if_true, if_false]
        refine ⟨by linarith, by linarith, ?_⟩
        exact (List.Perm.swap b c []).cons a
    · simp only [h1, h2, if_false]
      refine ⟨by linarith, by linarith, List.Perm.refl _⟩

example : sort3 3 1 2 = (1, 2, 3) := by norm_num [sort3]

/-! ### Surface at the vertices -/

lemma inner_fold (v : ℕ) (g : ℕ → ℝ) (cs : List ℕ) (eta : ℕ → ℝ) (k : ℕ) :
    cs.foldl (fun eta c => fun k => if k = v then eta k + g c else eta k) eta k =
      if k = v then eta k + (cs.map g).sum else eta k := by
  induction cs generalizing eta with
  | nil => simp
  | cons c cs ih =>
    rw [List.foldl_cons, ih, List.map_cons, List.sum_cons]
    by_cases hk : k = v
    · simp only [hk, if_true]
      ring
    · simp only [hk, if_false]

lemma etaVertices_eq (tinyH : ℝ) (m : VMesh) (h : ℕ → ℝ) (v : ℕ) (hv : v < m.numVertices) :
    etaVertices tinyH m h v = ((m.cellsAt v).map (etaShare tinyH m h v)).sum := by
  have key : ∀ n, ∀ k, (List.range n).foldl
      (fun eta v => (m.cellsAt v).foldl
        (fun eta c => fun k => if k = v then eta k + etaShare tinyH m h v c else eta k) eta) (fun _ => 0) k =
      if k < n then ((m.cellsAt k).map (etaShare tinyH m h k)).sum else 0 := by
    intro n
    induction n with
    | zero => simp
    | succ n ih =>
      intro k
      rw [List.range_succ, List.foldl_append, List.foldl_cons, List.foldl_nil,
        inner_fold n (etaShare tinyH m h n), ih]
      by_cases hk : k = n
      · subst hk
        rw [if_pos rfl, if_neg (lt_irrefl _), if_pos (Nat.lt_succ_self _), zero_add]
      · rw [if_neg hk]
        by_cases hl : k < n
        · rw [if_pos hl, if_pos (by omega)]
        · rw [if_neg hl, if_neg (by omega)]
  unfold etaVertices
  rw [key, if_pos hv]

/-- C51 (vertices): the surface at a vertex is the mean of the surfaces of the cells around it. -/
theorem C51_vertex (tinyH : ℝ) (m : VMesh) (h : ℕ → ℝ) (v : ℕ) (hv : v < m.numVertices) :
    etaVertices tinyH m h v =
      ((m.cellsAt v).map fun c => etaCell tinyH (geomZ m c).1 (geomZ m c).2.1 (geomZ m c).2.2 (h c)).sum /
        (m.cellsAt v).length := by
  rw [etaVertices_eq tinyH m h v hv]
  have key : ∀ (n : ℕ) (cs : List ℕ), (cs.map fun c =>
      etaCell tinyH (geomZ m c).1 (geomZ m c).2.1 (geomZ m c).2.2 (h c) * (1 / (n : ℝ))).sum =
      (cs.map fun c => etaCell tinyH (geomZ m c).1 (geomZ m c).2.1 (geomZ m c).2.2 (h c)).sum / n := by
    intro n cs
    induction cs with
    | nil => simp
    | cons c cs ih =>
      rw [List.map_cons, List.sum_cons, List.map_cons, List.sum_cons, ih]
      ring
  exact key (m.cellsAt v).length (m.cellsAt v)

/-- Two triangles with a common edge; vertices 0 to 3 have the elevations 0, 1, 2, 1. -/
def exPair : VMesh where
  numVertices := 4
  cellsAt v := if v = 0 then [0] else if v = 3 then [1] else [0, 1]
  verticesOf c := if c = 0 then [0, 1, 2] else [1, 3, 2]
  z v := if v = 0 then 0 else if v = 2 then 2 else 1

example : etaVertices 1e-7 exPair (fun c => if c = 0 then 2 else 1) 1 = (3 + 7 / 3) / 2 := by
  rw [C51_vertex _ _ _ _ (by decide)]
  norm_num [exPair, geomZ, sort3, etaCell, vfrH3]

/-- C51 (flat water, triangles): if every cell around a vertex is a triangle covered by water with the
surface `eta`, then the surface at the vertex is `eta`. Missing: cells that are partly covered, and
quadrilaterals. -/
theorem C51_flat_partial {tinyH : ℝ} (ht : 0 ≤ tinyH) (m : VMesh) (h : ℕ → ℝ) (eta : ℝ) (v : ℕ)
    (hv : v < m.numVertices) (hne : m.cellsAt v ≠ [])
    (hc : ∀ c ∈ m.cellsAt v, ∃ a b d, m.verticesOf c = [a, b, d] ∧ m.z a ≤ eta ∧ m.z b ≤ eta ∧ m.z d ≤ eta ∧
      h c = meanDepth (m.z a) (m.z b) (m.z d) eta ∧ tinyH < h c) :
    etaVertices tinyH m h v = eta := by
  have hcell : ∀ c ∈ m.cellsAt v,
      etaCell tinyH (geomZ m c).1 (geomZ m c).2.1 (geomZ m c).2.2 (h c) = eta := by
    intro c hcm
    obtain ⟨a, b, d, hvs, ha, hb, hd, hh, hw⟩ := hc c hcm
    have hz : geomZ m c = sort3 (m.z a) (m.z b) (m.z d) := by
      unfold geomZ
      rw [hvs]
      rfl
    obtain ⟨s1, s2, s3⟩ := C51_sort (m.z a) (m.z b) (m.z d)
    rw [hz]
    have hsum : (sort3 (m.z a) (m.z b) (m.z d)).1 + (sort3 (m.z a) (m.z b) (m.z d)).2.1 +
        (sort3 (m.z a) (m.z b) (m.z d)).2.2 = m.z a + m.z b + m.z d := by
      have := s3.sum_eq
      simp only [List.sum_cons, List.sum_nil] at this
      linarith
    have hmax : (sort3 (m.z a) (m.z b) (m.z d)).2.2 ≤ eta := by
      have : (sort3 (m.z a) (m.z b) (m.z d)).2.2 ∈ [m.z a, m.z b, m.z d] := s3.subset (by simp)
      simp only [List.mem_cons, List.not_mem_nil, or_false] at this
      rcases this with e | e | e <;> rw [e] <;> assumption
    rw [meanDepth_submerged ha hb hd] at hh
    have hm := meanDepth_submerged (z1 := (sort3 (m.z a) (m.z b) (m.z d)).1)
      (z2 := (sort3 (m.z a) (m.z b) (m.z d)).2.1) (z3 := (sort3 (m.z a) (m.z b) (m.z d)).2.2) (eta := eta)
      (by linarith) (by linarith) hmax
    rw [hsum, ← hh] at hm
    have := C51_recovers_partial ht s1 s2 (Or.inr hmax) (by rw [hm]; exact hw)
    rwa [hm] at this
  rw [C51_vertex tinyH m h v hv, List.map_congr_left hcell, List.map_const', List.sum_replicate, nsmul_eq_mul]
  have : ((m.cellsAt v).length : ℝ) ≠ 0 := by
    rw [Nat.cast_ne_zero]
    exact fun e => hne (List.length_eq_zero_iff.mp e)
  field_simp

/-- Water with the surface 3 over the two triangles: the mean depths are 2 and 5/3. -/
example : etaVertices 1e-7 exPair (fun c => if c = 0 then 2 else 5 / 3) 1 = 3 := by
  refine C51_flat_partial (by norm_num) exPair _ 3 1 (by decide) (by decide) ?_
  intro c hcm
  have hc : c = 0 ∨ c = 1 := by simpa [exPair] using hcm
  rcases hc with rfl | rfl
  · refine ⟨0, 1, 2, rfl, by norm_num [exPair], by norm_num [exPair], by norm_num [exPair], ?_, by norm_num⟩
    rw [meanDepth_submerged (by norm_num [exPair]) (by norm_num [exPair]) (by norm_num [exPair])]
    norm_num [exPair]
  · refine ⟨1, 3, 2, rfl, by norm_num [exPair], by norm_num [exPair], by norm_num [exPair], ?_, by norm_num⟩
    rw [meanDepth_submerged (by norm_num [exPair]) (by norm_num [exPair]) (by norm_num [exPair])]
    norm_num [exPair]

/-- C51 (edges): along an edge under water with a horizontal surface the change of depth is the change of the
bed with the opposite sign; where the surface at the vertices is the bed itself (the initial value of the
vector, which is kept without well balancing) it is zero. -/
theorem C51_dhv (zBeg zEnd eta : ℝ) (h1 : zBeg ≤ eta) (h2 : zEnd ≤ eta) :
    computeDhv zBeg zEnd eta eta = zBeg - zEnd ∧ computeDhv zBeg zEnd zBeg zEnd = 0 := by
  unfold computeDhv
  rw [max_eq_left (by linarith), max_eq_left (by linarith), sub_self, sub_self]
  constructor
  · ring
  · simp

example : computeDhv 0 1 3 3 = -1 := by
  rw [(C51_dhv 0 1 3 (by norm_num) (by norm_num)).1]
  norm_num

/-- A unit square whose bed rises from 0 to 1 along `y`: the vertices (0, 0), (1, 0), (1, 1), (0, 1). -/
def exTilted : VMesh where
  numVertices := 4
  cellsAt _ := [0]
  verticesOf _ := [0, 1, 2, 3]
  z v := if v < 2 then 0 else 1

/-- C51 does not hold for quadrilaterals, of which only the first three vertices are used: over a tilted square
with the surface 2 the mean depth is 3/2, but the surface computed from that depth is 11/6. -/
theorem C51_quad_violated :
    (∫ _x in (0 : ℝ)..1, ∫ y in (0 : ℝ)..1, max 0 (2 - y)) = 3 / 2 ∧
    etaVertices 1e-7 exTilted (fun _ => 3 / 2) 0 = 11 / 6 := by
  constructor
  · have h : ∀ y ∈ Set.uIcc (0 : ℝ) 1, max 0 (2 - y) = 2 - y := by
      intro y hy
      rw [Set.uIcc_of_le (by norm_num)] at hy
      exact max_eq_right (by linarith [hy.2])
    rw [integral_congr h, integral_sub (by simp) (by apply Continuous.intervalIntegrable; fun_prop)]
    simp
    norm_num
  · rw [C51_vertex _ _ _ _ (by decide)]
    norm_num [exTilted, geomZ, sort3, etaCell, vfrH3]

/-! ### C69: where the method is accepted -/

/-- C69 (sediment): with sediment the method is always refused, and other methods never are. -/
theorem C69_sediment_partial (numSediment : ℕ) (now opt : Bool) (hs : 0 < numSediment) :
    (setupWellBalancing .bs2002 numSediment now opt).1 = none ∧
    ∀ wb, wb ≠ .bs2002 → (setupWellBalancing wb numSediment now opt).1 = some wb := by
  constructor
  · simp [setupWellBalancing, refusesBS2002, hs]
  · intro wb hwb
    cases wb
    · cases opt <;> simp [setupWellBalancing, refusesBS2002, implemented]
    · exact absurd rfl hwb
    · cases opt <;> simp [setupWellBalancing, refusesBS2002, implemented]

example : (setupWellBalancing .hr 2 false true).1 = some .hr :=
  (C69_sediment_partial 2 false true (by norm_num)).2 .hr (by decide)

/-- C69 does not hold for the backends: the test refuses the method where CEED is already enabled (where the
method is implemented) instead of where it is not. In a new process nothing is refused, so the PETSc backend
runs without well balancing although the method was asked for; and a second setup in a process that uses
CEED is refused, with a message about the PETSc version. -/
theorem C69_backend_violated :
    (setupWellBalancing .bs2002 0 false false).1 = some .none ∧
    ((setupWellBalancing .bs2002 0 false true).1 = some .bs2002 ∧
     (setupWellBalancing .bs2002 0 (setupWellBalancing .bs2002 0 false true).2 true).1 = none) := by decide

/-! ### C70: still water with Bradford-Sanders -/

lemma velocitiesCeed_still {tinyH hAnuga h : ℝ} (ht : 0 ≤ tinyH) (hh : tinyH < h) :
    velocitiesCeed tinyH hAnuga ⟨h, 0, 0⟩ = some ⟨h, 0, 0⟩ := by
  have hp : 0 < h := lt_of_le_of_lt ht hh
  have hne : ¬(h * h + hAnuga * hAnuga = 0) := by
    have := mul_pos hp hp
    have := mul_self_nonneg hAnuga
    intro h0
    linarith
  have hs : safeDiv (0 * h) (h * h + hAnuga * hAnuga) h tinyH = some 0 := by
    unfold safeDiv
    rw [if_pos hh, if_neg hne, zero_mul, zero_div]
  unfold velocitiesCeed
  simp only [hs, Option.bind_some, Option.map_some]

/-- Mass flux between two cells of still water: wave speeds times the difference of the depths. -/
lemma still_mass {g tinyH hAnuga hL hR : ℝ} (hg : 0 < g) (ht : 0 ≤ tinyH) (h1 : tinyH < hL) (h2 : tinyH < hR)
    (sn cn dhv : ℝ) : ∃ F a A, roeFluxCeed g tinyH hAnuga ⟨hL, 0, 0⟩ ⟨hR, 0, 0⟩ sn cn dhv = some (F, a) ∧
      0 < A ∧ F.m = A * (hL - hR) := by
  have hdef : RoeDefined hL hR := ⟨by linarith, by linarith, by linarith⟩
  have hc := roeC_pos hg hdef
  have hr : roeFluxCeed g tinyH hAnuga ⟨hL, 0, 0⟩ ⟨hR, 0, 0⟩ sn cn dhv =
      some (⟨(roeCombine (sideFlux g ⟨hL, 0, 0⟩ sn cn) (sideFlux g ⟨hR, 0, 0⟩ sn cn)
        (roeEigCeed g ⟨hL, 0, 0⟩ ⟨hR, 0, 0⟩ sn cn) sn cn).m,
      (roeCombine (sideFlux g ⟨hL, 0, 0⟩ sn cn) (sideFlux g ⟨hR, 0, 0⟩ sn cn)
        (roeEigCeed g ⟨hL, 0, 0⟩ ⟨hR, 0, 0⟩ sn cn) sn cn).x + g * (dhv * dhv) / 24 * cn,
      (roeCombine (sideFlux g ⟨hL, 0, 0⟩ sn cn) (sideFlux g ⟨hR, 0, 0⟩ sn cn)
        (roeEigCeed g ⟨hL, 0, 0⟩ ⟨hR, 0, 0⟩ sn cn) sn cn).y + g * (dhv * dhv) / 24 * sn⟩,
      (roeEigCeed g ⟨hL, 0, 0⟩ ⟨hR, 0, 0⟩ sn cn).amax) := by
    unfold roeFluxCeed
    rw [velocitiesCeed_still ht h1, velocitiesCeed_still ht h2]
    simp only [Option.bind_some]
    rw [if_pos hdef]
  rw [hr]
  have hA : 0 < (entropyFix |0 - roeC g hL hR| (max 0 (2 * ((0 - √g * √hR) - (0 - √g * √hL)))) +
      entropyFix |0 + roeC g hL hR| (max 0 (2 * ((0 + √g * √hR) - (0 + √g * √hL))))) / 4 := by
    have e1 := entropyFix_ge (a := |0 - roeC g hL hR|) (da := max 0 (2 * ((0 - √g * √hR) - (0 - √g * √hL))))
      (abs_nonneg _)
    have e3 := entropyFix_nonneg (a := |0 + roeC g hL hR|) (da := max 0 (2 * ((0 + √g * √hR) - (0 + √g * √hL))))
      (abs_nonneg _)
    have : 0 < |0 - roeC g hL hR| := abs_pos.mpr (by linarith [hc] : _ ≠ _)
    linarith
  refine ⟨_, _, _, rfl, hA, ?_⟩
  have hz : ∀ a b : ℝ, roeAvg a b 0 0 = 0 := by
    intro a b
    unfold roeAvg
    rw [mul_zero, mul_zero, add_zero, zero_div]
  simp only [roeCombine, sideFlux, roeEigCeed, hz, uperp, zero_mul, add_zero]
  ring

/-- C70 (equal depths): between two wet cells with the same depth (a flat bed) still water has no mass flux. -/
theorem C70_flat_partial {g tinyH hAnuga h : ℝ} (hg : 0 < g) (ht : 0 ≤ tinyH) (hh : tinyH < h) (sn cn dhv : ℝ) :
    ∃ F a, roeFluxCeed g tinyH hAnuga ⟨h, 0, 0⟩ ⟨h, 0, 0⟩ sn cn dhv = some (F, a) ∧ F.m = 0 := by
  obtain ⟨F, a, A, h1, _, h3⟩ := still_mass (hAnuga := hAnuga) hg ht hh hh sn cn dhv
  exact ⟨F, a, h1, by rw [h3, sub_self, mul_zero]⟩

example : ∃ F a, roeFluxCeed 9.806 1e-7 0 ⟨2, 0, 0⟩ ⟨2, 0, 0⟩ 0 1 0.5 = some (F, a) ∧ F.m = 0 :=
  C70_flat_partial (by norm_num) (by norm_num) (by norm_num) 0 1 0.5

/-- C70 does not hold on an uneven bed: between any two wet cells of still water with different depths there
is a mass flux from the deeper to the shallower cell, whatever the correction `dhv` is. (The correction only
changes the momentum.) So still water with a horizontal surface starts to move under
`bradford_sanders_2002`. -/
theorem C70_uneven_violated {g tinyH hAnuga eta zL zR : ℝ} (hg : 0 < g) (ht : 0 ≤ tinyH) (h1 : tinyH < eta - zL)
    (h2 : tinyH < eta - zR) (hz : zL < zR) (sn cn dhv : ℝ) :
    ∃ F a, roeFluxCeed g tinyH hAnuga ⟨eta - zL, 0, 0⟩ ⟨eta - zR, 0, 0⟩ sn cn dhv = some (F, a) ∧ 0 < F.m := by
  obtain ⟨F, a, A, e1, e2, e3⟩ := still_mass (hAnuga := hAnuga) hg ht h1 h2 sn cn dhv
  exact ⟨F, a, e1, by rw [e3]; exact mul_pos e2 (by linarith)⟩

example : ∃ F a, roeFluxCeed 9.806 1e-7 0 ⟨2 - 0, 0, 0⟩ ⟨2 - 1, 0, 0⟩ 0 1 0 = some (F, a) ∧ 0 < F.m :=
  C70_uneven_violated (by norm_num) (by norm_num) (by norm_num) (by norm_num) (by norm_num) 0 1 0

end RDy
