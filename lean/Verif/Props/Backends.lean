import Verif.Model.Ceed
import Verif.Props.Conservation
import Mathlib.Tactic.FieldSimp
import Mathlib.Tactic.Ring
import Mathlib.Tactic.Linarith
import Mathlib.Tactic.NormNum
import Mathlib.Tactic.Positivity

/-!
C48: the PETSc and the CEED backend compute the same fluxes, sources and right-hand sides, except at
states where they are proved to differ.
-/

namespace RDy

/-! ### The Roe solver -/

/-- The two ways to compute the wave speeds of the sides agree. -/
theorem roeEigCeed_eq {g : ℝ} (hg : 0 ≤ g) (L R : Prim) (sn cn : ℝ) :
    roeEigCeed g L R sn cn = roeEig g L R sn cn := by
  simp only [roeEigCeed, roeEig, Real.sqrt_mul hg]

theorem velocitiesCeed_eq {tinyH : ℝ} (hAnuga : ℝ) (q : Cons) (ht : 0 < tinyH) (hq : q.h ≠ tinyH) :
    velocitiesCeed tinyH hAnuga q = some (velocities tinyH hAnuga q) := by
  unfold velocitiesCeed velocities safeDiv
  by_cases h : q.h > tinyH
  · have hd : q.h * q.h + hAnuga * hAnuga ≠ 0 := by
      have : 0 < q.h := ht.trans h
      nlinarith [mul_pos this this, mul_self_nonneg hAnuga]
    rw [if_pos h, if_pos h, if_neg hd, if_neg hd, if_neg (not_lt.2 (le_of_lt h))]
    rfl
  · have h' : q.h < tinyH := lt_of_le_of_ne (not_lt.1 h) hq
    rw [if_neg h, if_neg h, if_pos h']
    rfl

theorem roeFluxCeed_eq {g tinyH : ℝ} (hAnuga : ℝ) (qL qR : Cons) (sn cn : ℝ) (hg : 0 ≤ g)
    (ht : 0 < tinyH) (hL : qL.h ≠ tinyH) (hR : qR.h ≠ tinyH) :
    roeFluxCeed g tinyH hAnuga qL qR sn cn 0 =
      roeFlux g (velocities tinyH hAnuga qL) (velocities tinyH hAnuga qR) sn cn := by
  unfold roeFluxCeed roeFlux
  rw [velocitiesCeed_eq hAnuga qL ht hL, velocitiesCeed_eq hAnuga qR ht hR]
  simp only [Option.bind_some, roeEigCeed_eq hg]
  congr 3
  ext <;> simp

/-- C48 for internal edges and prescribed states: whatever the two states, unless one depth is exactly
the dry threshold, both backends use the same flux (including dry pairs and wet/dry fronts; both fail
for the same states). -/
theorem C48_interior {g tinyH : ℝ} (hAnuga : ℝ) (qL qR : Cons) (sn cn : ℝ) (hg : 0 ≤ g)
    (ht : 0 < tinyH) (hL : qL.h ≠ tinyH) (hR : qR.h ≠ tinyH) :
    (edgeFluxCeed g tinyH hAnuga qL qR sn cn 0).map Prod.fst =
      usedFlux g tinyH (velocities tinyH hAnuga qL) (velocities tinyH hAnuga qR) sn cn := by
  unfold edgeFluxCeed usedFlux
  rw [velocities_h, velocities_h]
  by_cases h : qL.h > tinyH ∨ qR.h > tinyH
  · have h' : ¬ (qR.h < tinyH ∧ qL.h < tinyH) := by
      rintro ⟨a, b⟩
      rcases h with h | h <;> linarith
    rw [if_pos h, if_pos h', roeFluxCeed_eq hAnuga qL qR sn cn hg ht hL hR]
  · rw [not_or, not_lt, not_lt] at h
    have h' : qR.h < tinyH ∧ qL.h < tinyH := ⟨lt_of_le_of_ne h.2 hR, lt_of_le_of_ne h.1 hL⟩
    rw [if_neg (not_or.2 ⟨not_lt.2 h.1, not_lt.2 h.2⟩), if_neg (not_not.2 h')]
    rfl

/-- a wet/dry front -/
example : (edgeFluxCeed 9.806 1e-7 0 ⟨2, 1, -1⟩ ⟨0, 0, 0⟩ 0.6 0.8 0).map Prod.fst =
    usedFlux 9.806 1e-7 (velocities 1e-7 0 ⟨2, 1, -1⟩) (velocities 1e-7 0 ⟨0, 0, 0⟩) 0.6 0.8 :=
  C48_interior 0 ⟨2, 1, -1⟩ ⟨0, 0, 0⟩ 0.6 0.8 (by norm_num) (by norm_num) (by norm_num) (by norm_num)

theorem reflect_velocities (tinyH hAnuga : ℝ) (q : Cons) (sn cn : ℝ) :
    velocities tinyH hAnuga ⟨q.h, q.hu * (sn * sn - cn * cn) - q.hv * (2 * sn * cn),
        -q.hu * (2 * sn * cn) - q.hv * (sn * sn - cn * cn)⟩ =
      reflectRight (velocities tinyH hAnuga q) sn cn := by
  unfold velocities reflectRight
  by_cases h : q.h < tinyH
  · simp [h]
  · simp only [if_neg h, Prim.mk.injEq, true_and]
    constructor <;> ring

/-- C48 for walls. -/
theorem C48_reflecting {g tinyH : ℝ} (hAnuga : ℝ) (q : Cons) (sn cn : ℝ) (hg : 0 ≤ g)
    (ht : 0 < tinyH) (hq : q.h ≠ tinyH) :
    (reflectFluxCeed g tinyH hAnuga q sn cn 0).map Prod.fst =
      usedFlux g tinyH (boundaryStates g tinyH hAnuga .reflecting q sn cn).1
        (boundaryStates g tinyH hAnuga .reflecting q sn cn).2 sn cn := by
  unfold reflectFluxCeed usedFlux boundaryStates
  simp only [reflectRight, velocities_h]
  by_cases h : q.h > tinyH
  · have h' : ¬ (q.h < tinyH ∧ q.h < tinyH) := fun a => by linarith [a.1]
    rw [if_pos h, if_pos h', roeFluxCeed_eq (g := g) (tinyH := tinyH) hAnuga q
      ⟨q.h, q.hu * (sn * sn - cn * cn) - q.hv * (2 * sn * cn),
        -q.hu * (2 * sn * cn) - q.hv * (sn * sn - cn * cn)⟩ sn cn hg ht hq hq, reflect_velocities]
    simp only [reflectRight, velocities_h]
  · have h' : q.h < tinyH := lt_of_le_of_ne (not_lt.1 h) hq
    rw [if_neg h, if_neg (not_not.2 ⟨h', h'⟩)]
    rfl

example : (reflectFluxCeed 9.806 1e-7 0.01 ⟨2, 1, -1⟩ 0.6 0.8 0).map Prod.fst =
    usedFlux 9.806 1e-7 (boundaryStates 9.806 1e-7 0.01 .reflecting ⟨2, 1, -1⟩ 0.6 0.8).1
      (boundaryStates 9.806 1e-7 0.01 .reflecting ⟨2, 1, -1⟩ 0.6 0.8).2 0.6 0.8 :=
  C48_reflecting 0.01 ⟨2, 1, -1⟩ 0.6 0.8 (by norm_num) (by norm_num) (by norm_num)

/-- the critical depth of a unit discharge `q` (specification) -/
noncomputable def criticalDepth (g q : ℝ) : ℝ := (|q| * |q| / g) ^ (1 / 3 : ℝ)

theorem criticalDepth_zero (g : ℝ) : criticalDepth g 0 = 0 := by
  simp [criticalDepth]

theorem velocities_wet {tinyH : ℝ} {q : Cons} (ht : 0 < tinyH) (h : q.h > tinyH) :
    velocities tinyH 0 q = ⟨q.h, q.hu / q.h, q.hv / q.h⟩ := by
  have : q.h ≠ 0 := by linarith
  unfold velocities
  rw [if_neg (not_lt.2 (le_of_lt h))]
  congr 1 <;> field_simp <;> ring

/-- C48 for critical outflow, partial: with velocities that are not regularised (`h_anuga_regular = 0`, the
default) and unless the critical depth is positive but at most the dry threshold; a dry cell must not
carry momentum. Elsewhere the backends differ (`C48_outflow_dry_violated`,
`C48_outflow_anuga_violated`). -/
theorem C48_outflow_partial {g tinyH : ℝ} (q : Cons) (sn cn : ℝ) (hg : 0 < g) (ht : 0 < tinyH)
    (hq : (q.h > tinyH ∧ (q.hu * cn + q.hv * sn ≤ 0 ∨ criticalDepth g (q.hu * cn + q.hv * sn) > tinyH)) ∨
      (q.h < tinyH ∧ q.hu = 0 ∧ q.hv = 0)) :
    (outflowFluxCeed g tinyH 0 q sn cn 0).map Prod.fst =
      usedFlux g tinyH (boundaryStates g tinyH 0 .outflow q sn cn).1
        (boundaryStates g tinyH 0 .outflow q sn cn).2 sn cn := by
  have hz : (0 : ℝ) ^ (1 / 3 : ℝ) = 0 := Real.zero_rpow (by norm_num)
  rcases hq with ⟨hw, hq⟩ | ⟨hd, hu, hv⟩
  · have hh : 0 < q.h := ht.trans hw
    have hup : uperp (q.hu / q.h) (q.hv / q.h) sn cn = (q.hu * cn + q.hv * sn) / q.h := by
      unfold uperp; field_simp
    unfold outflowFluxCeed usedFlux boundaryStates outflowStates
    rw [velocities_wet ht hw]
    simp only [hup]
    by_cases hneg : q.hu * cn + q.hv * sn < 0
    · have h1 : ¬ ((q.h > tinyH ∨ (|q.hu * cn + q.hv * sn| * |q.hu * cn + q.hv * sn| / g) ^ (1 / 3 : ℝ)
          > tinyH) ∧ q.hu * cn + q.hv * sn ≥ 0) := fun a => absurd a.2 (not_le.2 hneg)
      have h2 : (q.hu * cn + q.hv * sn) / q.h < 0 := div_neg_of_neg_of_pos hneg hh
      rw [if_neg h1, if_pos h2, if_neg (not_not.2 ⟨ht, ht⟩)]
      rfl
    · rw [not_lt] at hneg
      have h1 : (q.h > tinyH ∨ (|q.hu * cn + q.hv * sn| * |q.hu * cn + q.hv * sn| / g) ^ (1 / 3 : ℝ)
          > tinyH) ∧ q.hu * cn + q.hv * sn ≥ 0 := ⟨Or.inl hw, hneg⟩
      have h2 : ¬ (q.hu * cn + q.hv * sn) / q.h < 0 := not_lt.2 (div_nonneg hneg hh.le)
      have h3 : q.h * |(q.hu * cn + q.hv * sn) / q.h| = |q.hu * cn + q.hv * sn| := by
        rw [abs_div, abs_of_pos hh]; field_simp
      rw [if_pos h1, if_neg h2]
      simp only [h3]
      have hcd : (|q.hu * cn + q.hv * sn| * |q.hu * cn + q.hv * sn| / g) ^ (1 / 3 : ℝ) =
          criticalDepth g (q.hu * cn + q.hv * sn) := rfl
      rw [hcd]
      have hne : criticalDepth g (q.hu * cn + q.hv * sn) ≠ tinyH ∧
          velocities tinyH 0 ⟨criticalDepth g (q.hu * cn + q.hv * sn),
            criticalDepth g (q.hu * cn + q.hv * sn) * √(g * criticalDepth g (q.hu * cn + q.hv * sn)) * cn,
            criticalDepth g (q.hu * cn + q.hv * sn) * √(g * criticalDepth g (q.hu * cn + q.hv * sn)) * sn⟩
          = ⟨criticalDepth g (q.hu * cn + q.hv * sn),
              √(g * criticalDepth g (q.hu * cn + q.hv * sn)) * cn,
              √(g * criticalDepth g (q.hu * cn + q.hv * sn)) * sn⟩ := by
        rcases hq with h0 | hc
        · have : q.hu * cn + q.hv * sn = 0 := le_antisymm h0 hneg
          rw [this, criticalDepth_zero]
          refine ⟨ht.ne, ?_⟩
          unfold velocities
          rw [if_pos ht]
          simp
        · refine ⟨ne_of_gt hc, ?_⟩
          have hpos : criticalDepth g (q.hu * cn + q.hv * sn) ≠ 0 := by linarith
          rw [velocities_wet ht hc]
          congr 1 <;> field_simp
      have h4 : ¬ (criticalDepth g (q.hu * cn + q.hv * sn) < tinyH ∧ q.h < tinyH) :=
        fun a => by linarith [a.2]
      rw [if_pos h4, roeFluxCeed_eq (g := g) (tinyH := tinyH) 0 q
        ⟨criticalDepth g (q.hu * cn + q.hv * sn),
          criticalDepth g (q.hu * cn + q.hv * sn) * √(g * criticalDepth g (q.hu * cn + q.hv * sn)) * cn,
          criticalDepth g (q.hu * cn + q.hv * sn) * √(g * criticalDepth g (q.hu * cn + q.hv * sn)) * sn⟩
        sn cn hg.le ht (ne_of_gt hw) hne.1, hne.2, velocities_wet ht hw]
  · unfold outflowFluxCeed usedFlux boundaryStates outflowStates velocities
    have h1 : ¬ ((q.h > tinyH ∨ (0 : ℝ) > tinyH) ∧ (0 : ℝ) ≥ 0) := by
      rintro ⟨a | a, -⟩ <;> linarith
    simp only [if_pos hd, hu, hv, uperp, zero_mul, mul_zero, add_zero, abs_zero, zero_div, hz, if_neg h1,
      lt_irrefl, if_false, if_neg (not_not.2 (And.intro ht hd))]
    rfl

/-- a wet cell with outflow -/
example : (outflowFluxCeed 9 1e-7 0 ⟨2, 3, 0⟩ 0 1 0).map Prod.fst =
    usedFlux 9 1e-7 (boundaryStates 9 1e-7 0 .outflow ⟨2, 3, 0⟩ 0 1).1
      (boundaryStates 9 1e-7 0 .outflow ⟨2, 3, 0⟩ 0 1).2 0 1 :=
  C48_outflow_partial ⟨2, 3, 0⟩ 0 1 (by norm_num) (by norm_num)
    (Or.inl ⟨by norm_num, Or.inr (by norm_num [criticalDepth])⟩)

/-! ### Where the backends differ -/

/-- Two cells with a depth of exactly `tiny_h`: PETSc treats them as wet, CEED as dry. -/
theorem C48_threshold_violated {g tinyH : ℝ} (hg : 0 < g) (ht : 0 < tinyH) :
    (edgeFluxCeed g tinyH 0 ⟨tinyH, 0, 0⟩ ⟨tinyH, 0, 0⟩ 0 1 0).map Prod.fst = some ⟨0, 0, 0⟩ ∧
    usedFlux g tinyH (velocities tinyH 0 ⟨tinyH, 0, 0⟩) (velocities tinyH 0 ⟨tinyH, 0, 0⟩) 0 1 =
      some ⟨0, 0.5 * g * tinyH * tinyH, 0⟩ := by
  constructor
  · unfold edgeFluxCeed
    rw [if_neg (by simp)]
    rfl
  · have hv : velocities tinyH 0 ⟨tinyH, 0, 0⟩ = ⟨tinyH, 0, 0⟩ := by simp [velocities]
    have ha := C36_consistent (g := g) ⟨tinyH, 0, 0⟩ 1 0 hg ht
    unfold usedFlux
    rw [hv, if_pos (by simp), ha]
    simp only [Option.map_some, physFlux]
    congr 2 <;> ring

/-- At a critical-outflow boundary, a dry cell that still carries momentum draws water in from outside
with CEED (negative outward flux); PETSc uses no flux. -/
theorem C48_outflow_dry_violated :
    (∃ F : Flux, (outflowFluxCeed 9 1e-7 0 ⟨0, 3, 0⟩ 0 1 0).map Prod.fst = some F ∧ F.m < 0) ∧
    usedFlux 9 1e-7 (boundaryStates 9 1e-7 0 .outflow ⟨0, 3, 0⟩ 0 1).1
      (boundaryStates 9 1e-7 0 .outflow ⟨0, 3, 0⟩ 0 1).2 0 1 = some ⟨0, 0, 0⟩ := by
  have hz : (0 : ℝ) ^ (1 / 3 : ℝ) = 0 := Real.zero_rpow (by norm_num)
  constructor
  · have hR : ((|(3 : ℝ) * 1 + 0 * 0| * |(3 : ℝ) * 1 + 0 * 0| / 9) ^ (1 / 3 : ℝ)) = 1 := by norm_num
    have h9 : √((9 : ℝ) * 1) = 3 := by
      rw [show ((9 : ℝ) * 1) = 3 ^ 2 by norm_num, Real.sqrt_sq (by norm_num)]
    unfold outflowFluxCeed
    simp only [hR, h9]
    rw [if_pos (by norm_num), roeFluxCeed_eq (g := 9) (tinyH := 1e-7) 0 ⟨0, 3, 0⟩ _ 0 1 (by norm_num)
      (by norm_num) (by norm_num) (by norm_num)]
    have hL : velocities 1e-7 0 ⟨0, 3, 0⟩ = ⟨0, 0, 0⟩ := by
      unfold velocities; rw [if_pos (by norm_num)]
    have hRv : velocities 1e-7 0 ⟨1, 1 * 3 * 1, 1 * 3 * 0⟩ = ⟨1, 3, 0⟩ := by
      unfold velocities; rw [if_neg (by norm_num)]; norm_num
    rw [hL, hRv]
    unfold roeFlux
    rw [if_pos (by norm_num [RoeDefined])]
    refine ⟨_, rfl, ?_⟩
    have hc : roeC 9 0 1 ^ 2 = 4.5 := by
      unfold roeC
      rw [Real.sq_sqrt (by norm_num)]
      norm_num
    have hc0 : 0 ≤ roeC 9 0 1 := Real.sqrt_nonneg _
    have hc3 : roeC 9 0 1 < 2.2 := by nlinarith
    have e1 : (roeEig 9 ⟨0, 0, 0⟩ ⟨1, 3, 0⟩ 0 1).a1 = 3 - roeC 9 0 1 := by
      have : |uperp (roeAvg 0 1 0 3) (roeAvg 0 1 0 0) 0 1 - roeC 9 0 1| = 3 - roeC 9 0 1 := by
        rw [show uperp (roeAvg 0 1 0 3) (roeAvg 0 1 0 0) 0 1 = 3 by norm_num [uperp, roeAvg],
          abs_of_pos (by linarith)]
      unfold roeEig
      simp only
      rw [this, h9]
      have hm : max (0 : ℝ) (2 * (uperp 3 0 0 1 - 3 - (uperp 0 0 0 1 - √(9 * 0)))) = 0 := by
        norm_num [uperp]
      rw [hm]
      exact entropyFix_zero (by linarith)
    have e3 : (roeEig 9 ⟨0, 0, 0⟩ ⟨1, 3, 0⟩ 0 1).a3 = 0.5 * ((3 + roeC 9 0 1) * (3 + roeC 9 0 1) / 12 + 12) := by
      have : |uperp (roeAvg 0 1 0 3) (roeAvg 0 1 0 0) 0 1 + roeC 9 0 1| = 3 + roeC 9 0 1 := by
        rw [show uperp (roeAvg 0 1 0 3) (roeAvg 0 1 0 0) 0 1 = 3 by norm_num [uperp, roeAvg],
          abs_of_pos (by linarith)]
      unfold roeEig
      simp only
      rw [this, h9]
      have hm : max (0 : ℝ) (2 * (uperp 3 0 0 1 + 3 - (uperp 0 0 0 1 + √(9 * 0)))) = 12 := by
        norm_num [uperp]
      rw [hm]
      unfold entropyFix
      rw [if_pos (by linarith)]
    have w1 : (roeEig 9 ⟨0, 0, 0⟩ ⟨1, 3, 0⟩ 0 1).w1 = 0.5 := by norm_num [roeEig]
    have w3 : (roeEig 9 ⟨0, 0, 0⟩ ⟨1, 3, 0⟩ 0 1).w3 = 0.5 := by norm_num [roeEig]
    simp only [roeCombine, e1, e3, w1, w3, sideFlux, uperp]
    nlinarith
  · have hd : (0 : ℝ) < 1e-7 := by norm_num
    have hL : velocities 1e-7 0 ⟨0, 3, 0⟩ = ⟨0, 0, 0⟩ := by
      unfold velocities; rw [if_pos hd]
    unfold usedFlux boundaryStates outflowStates
    simp only [hL, uperp, zero_mul, add_zero, abs_zero, zero_div, hz, lt_irrefl, if_false]
    rw [if_neg (not_not.2 (And.intro hd hd))]

/-- With regularised velocities the backends compute different outflows: CEED derives the critical depth
from the momentum, PETSc from the regularised velocity. -/
theorem C48_outflow_anuga_violated (s : ℝ) (hs : s * s = 7) :
    (∃ F : Flux, (outflowFluxCeed 9 1e-7 s ⟨1, 3, 0⟩ 0 1 0).map Prod.fst = some F ∧ F.m = 3 / 8) ∧
    ∃ F : Flux, usedFlux 9 1e-7 (boundaryStates 9 1e-7 s .outflow ⟨1, 3, 0⟩ 0 1).1
      (boundaryStates 9 1e-7 s .outflow ⟨1, 3, 0⟩ 0 1).2 0 1 = some F ∧ F.m > 3 / 8 := by
  have h9 : √((9 : ℝ) * 1) = 3 := by
    rw [show ((9 : ℝ) * 1) = 3 ^ 2 by norm_num, Real.sqrt_sq (by norm_num)]
  have hL : velocities 1e-7 s ⟨1, 3, 0⟩ = ⟨1, 3 / 8, 0⟩ := by
    unfold velocities
    rw [if_neg (by norm_num)]
    simp only [hs]
    norm_num
  constructor
  · have hR : ((|(3 : ℝ) * 1 + 0 * 0| * |(3 : ℝ) * 1 + 0 * 0| / 9) ^ (1 / 3 : ℝ)) = 1 := by norm_num
    unfold outflowFluxCeed
    simp only [hR, h9]
    rw [if_pos (by norm_num), roeFluxCeed_eq (g := 9) (tinyH := 1e-7) s ⟨1, 3, 0⟩ _ 0 1 (by norm_num)
      (by norm_num) (by norm_num) (by norm_num)]
    have hRv : velocities 1e-7 s ⟨1, 1 * 3 * 1, 1 * 3 * 0⟩ = ⟨1, 3 / 8, 0⟩ := by
      rw [← hL]; norm_num
    rw [hL, hRv]
    have ha := C36_consistent (g := 9) ⟨1, 3 / 8, 0⟩ 1 0 (by norm_num) (by norm_num)
    rw [ha]
    exact ⟨_, rfl, by norm_num [physFlux]⟩
  · have hR : ((1 * |uperp (3 / 8) 0 0 1| * (1 * |uperp (3 / 8) 0 0 1|) / 9) ^ (1 / 3 : ℝ)) = (1 / 4 : ℝ) := by
      have : (1 * |uperp (3 / 8) 0 0 1| * (1 * |uperp (3 / 8) 0 0 1|) / 9) = ((1 / 4 : ℝ)) ^ (3 : ℝ) := by
        norm_num [uperp]
      rw [this, ← Real.rpow_mul (by norm_num)]
      norm_num
    have h94 : √((9 : ℝ) * (1 / 4)) = 3 / 2 := by
      rw [show ((9 : ℝ) * (1 / 4)) = (3 / 2) ^ 2 by norm_num, Real.sqrt_sq (by norm_num)]
    have h14 : √(1 / 4 : ℝ) = 1 / 2 := by
      rw [show (1 / 4 : ℝ) = (1 / 2) ^ 2 by norm_num, Real.sqrt_sq (by norm_num)]
    have hst : boundaryStates 9 1e-7 s .outflow ⟨1, 3, 0⟩ 0 1 = (⟨1, 3 / 8, 0⟩, ⟨1 / 4, 3 / 2, 0⟩) := by
      unfold boundaryStates outflowStates
      simp only [hL]
      rw [if_neg (by norm_num [uperp])]
      simp only [hR, h94]
      norm_num
    rw [hst]
    unfold usedFlux roeFlux
    rw [if_pos (by norm_num), if_pos (by norm_num [RoeDefined])]
    refine ⟨_, rfl, ?_⟩
    have hc : roeC 9 1 (1 / 4) ^ 2 = 5.625 := by
      unfold roeC
      rw [Real.sq_sqrt (by norm_num)]
      norm_num
    have hc0 : 0 ≤ roeC 9 1 (1 / 4) := Real.sqrt_nonneg _
    have hc2 : 2 < roeC 9 1 (1 / 4) := by nlinarith
    have hu : uperp (roeAvg 1 (1 / 4) (3 / 8) (3 / 2)) (roeAvg 1 (1 / 4) 0 0) 0 1 = 3 / 4 := by
      unfold roeAvg uperp
      rw [h14]
      norm_num
    have e1 : 0 < (roeEig 9 ⟨1, 3 / 8, 0⟩ ⟨1 / 4, 3 / 2, 0⟩ 0 1).a1 := by
      refine lt_of_lt_of_le ?_ (entropyFix_ge (abs_nonneg _))
      simp only [hu]
      exact abs_pos.2 (by linarith)
    have e3 : 0 < (roeEig 9 ⟨1, 3 / 8, 0⟩ ⟨1 / 4, 3 / 2, 0⟩ 0 1).a3 := by
      refine lt_of_lt_of_le ?_ (entropyFix_ge (abs_nonneg _))
      simp only [hu]
      exact abs_pos.2 (by linarith)
    have hdiv : 0 ≤ (9 / 16) / roeC 9 1 (1 / 4) ∧ (9 / 16) / roeC 9 1 (1 / 4) < 3 / 4 := by
      refine ⟨by positivity, ?_⟩
      rw [div_lt_iff₀ (by linarith)]
      linarith
    have w1 : (roeEig 9 ⟨1, 3 / 8, 0⟩ ⟨1 / 4, 3 / 2, 0⟩ 0 1).w1 < 0 := by
      have : (roeEig 9 ⟨1, 3 / 8, 0⟩ ⟨1 / 4, 3 / 2, 0⟩ 0 1).w1 =
          0.5 * (-(3 / 4) - (9 / 16) / roeC 9 1 (1 / 4)) := by
        simp only [roeEig, uperp, Real.sqrt_one, h14]
        norm_num
      rw [this]
      linarith [hdiv.1]
    have w3 : (roeEig 9 ⟨1, 3 / 8, 0⟩ ⟨1 / 4, 3 / 2, 0⟩ 0 1).w3 < 0 := by
      have : (roeEig 9 ⟨1, 3 / 8, 0⟩ ⟨1 / 4, 3 / 2, 0⟩ 0 1).w3 =
          0.5 * (-(3 / 4) + (9 / 16) / roeC 9 1 (1 / 4)) := by
        simp only [roeEig, uperp, Real.sqrt_one, h14]
        norm_num
      rw [this]
      linarith [hdiv.2]
    have m1 := mul_neg_of_pos_of_neg e1 w1
    have m3 := mul_neg_of_pos_of_neg e3 w3
    simp only [roeCombine, sideFlux, uperp]
    generalize (roeEig 9 ⟨1, 3 / 8, 0⟩ ⟨1 / 4, 3 / 2, 0⟩ 0 1) = e at *
    linarith

/-- there is such a regularisation parameter -/
example : (√7 : ℝ) * √7 = 7 := Real.mul_self_sqrt (by norm_num)

end RDy
