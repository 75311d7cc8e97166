import Verif.Model.Advance
import Verif.Props.Time
import Mathlib.Tactic.Linarith
import Mathlib.Tactic.Positivity
import Mathlib.Tactic.Push

/-! Helper lemmas for the coupling loop (no claims here). -/

namespace RDy

theorem tsLoop_time (dt M : ℝ) (hdt : 0 < dt) (n : ℕ) (t : ℝ) :
    (tsLoop dt M n t).1 = if M ≤ t then t else min M (t + n * dt) := by
  induction n generalizing t with
  | zero =>
    simp only [tsLoop]
    split_ifs with h
    · rfl
    · push Not at h
      simp [min_eq_right h.le]
  | succ n ih =>
    simp only [tsLoop]
    split_ifs with h
    · rfl
    · push Not at h
      simp only [ih]
      by_cases hc : dt < M - t
      · rw [min_eq_left hc.le, if_neg (by linarith)]
        push_cast
        congr 1; ring
      · push Not at hc
        rw [min_eq_right hc, if_pos (by linarith)]
        rw [min_eq_left]
        · ring
        · push_cast
          have : (0 : ℝ) ≤ n * dt := by positivity
          linarith

theorem tsLoop_steps_le (dt M : ℝ) (n : ℕ) (t : ℝ) : (tsLoop dt M n t).2 ≤ n := by
  induction n generalizing t with
  | zero => simp [tsLoop]
  | succ n ih =>
    simp only [tsLoop]
    split_ifs
    · simp
    · simpa using ih _

theorem tsLoop_time_le (dt M : ℝ) (n : ℕ) (t : ℝ) :
    (tsLoop dt M n t).1 ≤ t + (tsLoop dt M n t).2 * dt := by
  induction n generalizing t with
  | zero => simp [tsLoop]
  | succ n ih =>
    simp only [tsLoop]
    split_ifs
    · simp
    · refine (ih _).trans ?_
      push_cast
      have := min_le_left dt (M - t)
      linarith

theorem ceil_sub_one_steps {x dt : ℝ} (hdt : 0 < dt) (hx : dt < x) :
    ⌈x / dt⌉₊ = ⌈(x - dt) / dt⌉₊ + 1 := by
  have e : x / dt = (x - dt) / dt + 1 := by field_simp; ring
  rw [e, Nat.ceil_add_one]
  have : 0 < x - dt := by linarith
  positivity

theorem tsLoop_steps (dt M : ℝ) (hdt : 0 < dt) (n : ℕ) (t : ℝ) (ht : t < M)
    (hn : ⌈(M - t) / dt⌉₊ ≤ n) : (tsLoop dt M n t).2 = ⌈(M - t) / dt⌉₊ := by
  induction n generalizing t with
  | zero =>
    have h0 : 0 < (M - t) / dt := div_pos (by linarith) hdt
    have := Nat.ceil_pos.2 h0
    omega
  | succ n ih =>
    simp only [tsLoop]
    rw [if_neg (by linarith)]
    simp only
    by_cases hc : dt < M - t
    · rw [min_eq_left hc.le]
      have e := ceil_sub_one_steps hdt hc
      have e2 : M - (t + dt) = M - t - dt := by ring
      rw [ih (t + dt) (by linarith) (by rw [e2]; omega), e2, e]
    · push Not at hc
      rw [min_eq_right hc]
      have : (tsLoop dt M n (t + (M - t))).2 = 0 := by
        cases n with
        | zero => rfl
        | succ n => simp [tsLoop]
      rw [this]
      symm
      rw [zero_add, Nat.ceil_eq_iff one_ne_zero]
      constructor
      · simpa using div_pos (by linarith) hdt
      · rw [Nat.cast_one, div_le_one hdt]; exact hc

theorem tsLoop_reaches (dt M : ℝ) (hdt : 0 < dt) (n : ℕ) (t : ℝ) (ht : t < M)
    (hn : ⌈(M - t) / dt⌉₊ ≤ n) : tsLoop dt M n t = (M, ⌈(M - t) / dt⌉₊) := by
  refine Prod.ext ?_ (tsLoop_steps dt M hdt n t ht hn)
  rw [tsLoop_time dt M hdt, if_neg (by linarith), min_eq_left]
  have h1 : (M - t) / dt ≤ n := (Nat.ceil_le).1 hn
  rw [div_le_iff₀ hdt] at h1
  linarith

theorem clampTo_eq_min (interval dt : ℝ) : clampTo interval dt = min interval dt := by
  unfold clampTo
  split_ifs with h
  · rw [min_eq_left h.le]
  · push Not at h; rw [min_eq_right h]

theorem increaseFactor_le (a : AdaptiveCfg) (cn : ℝ) : increaseFactor a cn ≤ a.maxInc := by
  unfold increaseFactor; split_ifs
  · exact le_rfl
  · exact min_le_right _ _

theorem one_le_increaseFactor (a : AdaptiveCfg) {cn : ℝ} (hm : 1 < a.maxInc) (hcn : 0 ≤ cn)
    (h : cn < a.target) : 1 ≤ increaseFactor a cn := by
  unfold increaseFactor; split_ifs with h0
  · exact hm.le
  · have hc : 0 < cn := lt_of_le_of_ne hcn (Ne.symm h0)
    exact le_min (by rw [le_div_iff₀ hc]; linarith) hm.le

theorem adaptDt_pos (a : AdaptiveCfg) {interval dt cn : ℝ} (ht : 0 < a.target)
    (hm : 1 < a.maxInc) (hi : 0 < interval) (hdt : 0 < dt) (hcn : 0 ≤ cn) :
    0 < adaptDt a interval dt cn := by
  unfold adaptDt
  split_ifs with h1
  · rw [clampTo_eq_min]
    have := one_le_increaseFactor a hm hcn h1
    exact lt_min hi (mul_pos hdt (by linarith))
  · push Not at h1
    have hc : 0 < cn := by linarith
    exact mul_pos hdt (div_pos ht hc)

end RDy
