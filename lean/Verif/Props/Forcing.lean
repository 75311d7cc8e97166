import Mathlib.Tactic.Linarith
import Mathlib.Tactic.NormNum
import Mathlib.Tactic.FieldSimp
import Mathlib.Tactic.Ring
import Mathlib.Tactic.Push
import Mathlib.Algebra.Order.Floor.Semiring
import Mathlib.Algebra.Order.Archimedean.Real.Basic
import Verif.Model.Forcing
import Verif.Props.Data

/-!
# C52–C55, C71, C72: forcing datasets
-/

noncomputable section

namespace RDy

/-! ## C52: lookup in a time series -/

/-- Specification: the sample times increase. -/
def Increasing (d : ℕ → ℝ) (n : ℕ) : Prop := ∀ i, i + 1 < n → d (i * 2) < d (i * 2 + 2)

/-- Specification: sample `i` is the active one at time `t`. -/
def Active (d : ℕ → ℝ) (n : ℕ) (t : ℝ) (i : ℕ) : Prop :=
  (i + 1 < n ∧ d (i * 2) ≤ t ∧ t < d (i * 2 + 2)) ∨ (i + 1 = n ∧ d (i * 2) ≤ t)

theorem Increasing.lt {d : ℕ → ℝ} {n : ℕ} (h : Increasing d n) {i j : ℕ} (hij : i < j)
    (hj : j < n) : d (i * 2) < d (j * 2) := by
  induction j with
  | zero => omega
  | succ j ih =>
    have h1 := h j hj
    have e : (j + 1) * 2 = j * 2 + 2 := by ring
    rw [e]
    rcases Nat.lt_or_ge i j with h2 | h2
    · exact lt_trans (ih h2 (by omega)) h1
    · have : i = j := by omega
      rw [this]; exact h1

theorem Increasing.le {d : ℕ → ℝ} {n : ℕ} (h : Increasing d n) {i j : ℕ} (hij : i ≤ j)
    (hj : j < n) : d (i * 2) ≤ d (j * 2) := by
  rcases Nat.lt_or_ge i j with h2 | h2
  · exact (h.lt h2 hj).le
  · have : i = j := by omega
    rw [this]

theorem bracketIdx_eq {d : ℕ → ℝ} {n : ℕ} (h : Increasing d n) {t : ℝ} {i : ℕ} (hi : i + 1 < n)
    (h1 : d (i * 2) ≤ t) (h2 : t < d (i * 2 + 2)) : bracketIdx d n t = some i := by
  unfold bracketIdx
  rw [List.find?_eq_some_iff_getElem]
  refine ⟨by simp [h1, h2], i, by simp; omega, by simp, ?_⟩
  intro j hj
  simp only [List.getElem_range, Bool.not_eq_true', decide_eq_false_iff_not, not_and, not_lt]
  intro _
  have := h.le (i := j + 1) (j := i) (by omega) (by omega)
  have e : (j + 1) * 2 = j * 2 + 2 := by ring
  rw [e] at this
  linarith

theorem bracketIdx_none {d : ℕ → ℝ} {n : ℕ} {t : ℝ}
    (h : ∀ i, i + 1 < n → t < d (i * 2) ∨ d (i * 2 + 2) ≤ t) : bracketIdx d n t = none := by
  unfold bracketIdx
  rw [List.find?_eq_none]
  intro i hi
  have hi' : i + 1 < n := by simp at hi; omega
  simp only [decide_eq_true_eq, not_and, not_lt]
  intro h3
  rcases h i hi' with h4 | h4
  · linarith
  · exact h4

/-- C52 (bracketing): at a time within an interval of the dataset the value is the sample at the
interval's start, or with interpolation the point on the straight line between the two samples. -/
theorem C52_bracket (d : ℕ → ℝ) (n : ℕ) (h : Increasing d n) (t : ℝ) (i : ℕ) (hi : i + 1 < n)
    (h1 : d (i * 2) ≤ t) (h2 : t < d (i * 2 + 2)) :
    getCurrentData d n t false = some (i, d (i * 2 + 1)) ∧
    ∃ v, getCurrentData d n t true = some (i, v) ∧
      (v - d (i * 2 + 1)) * (d (i * 2 + 2) - d (i * 2)) =
        (t - d (i * 2)) * (d (i * 2 + 3) - d (i * 2 + 1)) := by
  have hb := bracketIdx_eq h hi h1 h2
  have hn : n ≠ 0 := by omega
  have hne : d (i * 2 + 2) - d (i * 2) ≠ 0 := by
    have := h i hi
    intro hc; linarith
  constructor
  · unfold getCurrentData
    rw [if_neg hn, hb]
    rfl
  · refine ⟨(t - d (i * 2)) / (d (i * 2 + 2) - d (i * 2)) * (d (i * 2 + 3) - d (i * 2 + 1)) +
      d (i * 2 + 1), ?_, ?_⟩
    · unfold getCurrentData
      rw [if_neg hn, hb]
      rfl
    · field_simp
      ring

/-- A dataset for the examples: (0, 5), (10, 7), (20, 1). -/
def exSeries : ℕ → ℝ := fun i => [0, 5, 10, 7, 20, 1].getD i 0

theorem exSeries_increasing : Increasing exSeries 3 := by
  intro i hi
  have : i = 0 ∨ i = 1 := by omega
  rcases this with rfl | rfl <;> norm_num [exSeries]

example : Increasing exSeries 3 ∧ 1 + 1 < 3 ∧ exSeries (1 * 2) ≤ 15 ∧ (15 : ℝ) < exSeries (1 * 2 + 2) :=
  ⟨exSeries_increasing, by norm_num, by norm_num [exSeries], by norm_num [exSeries]⟩

/-- C52 (interpolation): the interpolated value stays between the two samples and equals the first
one at the start of the interval. -/
theorem C52_interpolation_between (d : ℕ → ℝ) (n : ℕ) (h : Increasing d n) (t : ℝ) (i : ℕ)
    (hi : i + 1 < n) (h1 : d (i * 2) ≤ t) (h2 : t < d (i * 2 + 2)) (j : ℕ) (v : ℝ)
    (hv : getCurrentData d n t true = some (j, v)) :
    min (d (i * 2 + 1)) (d (i * 2 + 3)) ≤ v ∧ v ≤ max (d (i * 2 + 1)) (d (i * 2 + 3)) ∧
    (t = d (i * 2) → v = d (i * 2 + 1)) := by
  obtain ⟨_, w, hw, he⟩ := C52_bracket d n h t i hi h1 h2
  rw [hw] at hv
  obtain ⟨_, rfl⟩ : i = j ∧ w = v := by simpa using hv
  have hpos : 0 < d (i * 2 + 2) - d (i * 2) := by linarith
  generalize d (i * 2) = a at *
  generalize d (i * 2 + 2) = b at *
  generalize d (i * 2 + 1) = x at *
  generalize d (i * 2 + 3) = y at *
  have hA : 0 ≤ t - a := by linarith
  have hB : 0 ≤ b - t := by linarith
  refine ⟨?_, ?_, ?_⟩
  · rcases le_total x y with hxy | hxy
    · rw [min_eq_left hxy]
      have : 0 ≤ (w - x) * (b - a) := by rw [he]; exact mul_nonneg hA (by linarith)
      have := nonneg_of_mul_nonneg_left this hpos
      linarith
    · rw [min_eq_right hxy]
      have h3 : (w - y) * (b - a) = (b - t) * (x - y) := by linarith [he, mul_comm (w - x) (b - a)]
      have : 0 ≤ (w - y) * (b - a) := by rw [h3]; exact mul_nonneg hB (by linarith)
      have := nonneg_of_mul_nonneg_left this hpos
      linarith
  · rcases le_total x y with hxy | hxy
    · rw [max_eq_right hxy]
      have h3 : (y - w) * (b - a) = (b - t) * (y - x) := by linarith [he, mul_comm (w - x) (b - a)]
      have : 0 ≤ (y - w) * (b - a) := by rw [h3]; exact mul_nonneg hB (by linarith)
      have := nonneg_of_mul_nonneg_left this hpos
      linarith
    · rw [max_eq_left hxy]
      have h3 : (x - w) * (b - a) = (t - a) * (x - y) := by linarith
      have : 0 ≤ (x - w) * (b - a) := by rw [h3]; exact mul_nonneg hA (by linarith)
      have := nonneg_of_mul_nonneg_left this hpos
      linarith
  · intro ht
    rw [ht, sub_self, zero_mul] at he
    rcases mul_eq_zero.mp he with h3 | h3
    · linarith
    · linarith

example : ∃ v, getCurrentData exSeries 3 15 true = some (1, v) := by
  obtain ⟨_, v, hv, _⟩ := C52_bracket exSeries 3 exSeries_increasing 15 1 (by norm_num)
    (by norm_num [exSeries]) (by norm_num [exSeries])
  exact ⟨v, hv⟩

/-- C52 (after the end): from the last sample time on the value is the last one, with or without
interpolation. -/
theorem C52_after (d : ℕ → ℝ) (n : ℕ) (hn : 0 < n) (h : Increasing d n) (t : ℝ)
    (ht : d ((n - 1) * 2) ≤ t) (interp : Bool) :
    getCurrentData d n t interp = some (n - 1, d ((n - 1) * 2 + 1)) := by
  have hb : bracketIdx d n t = none := by
    apply bracketIdx_none
    intro i hi
    right
    have := h.le (i := i + 1) (j := n - 1) (by omega) (by omega)
    have e : (i + 1) * 2 = i * 2 + 2 := by ring
    rw [e] at this
    linarith
  unfold getCurrentData
  rw [if_neg (by omega), hb]
  have e : n * 2 - 1 = (n - 1) * 2 + 1 := by omega
  simp only [e]

example : (0 : ℕ) < 3 ∧ Increasing exSeries 3 ∧ exSeries ((3 - 1) * 2) ≤ 100 :=
  ⟨by norm_num, exSeries_increasing, by norm_num [exSeries]⟩

/-- C52 (completeness): every time from the first sample on has exactly one active sample, and that
is the one whose index is returned. -/
theorem C52_active (d : ℕ → ℝ) (n : ℕ) (hn : 0 < n) (h : Increasing d n) (t : ℝ)
    (ht : d 0 ≤ t) (interp : Bool) :
    ∃ i v, getCurrentData d n t interp = some (i, v) ∧ Active d n t i ∧
      (∀ j, Active d n t j → j = i) ∧ (interp = false → v = d (i * 2 + 1)) := by
  have huniq : ∀ i j, Active d n t i → Active d n t j → j ≤ i := by
    intro i j hi hj
    by_contra hc
    have hjn : j < n := by rcases hj with h1 | h1 <;> omega
    have hi1 : i + 1 < n := by omega
    have hlt : t < d (i * 2 + 2) := by
      rcases hi with h1 | h1
      · exact h1.2.2
      · omega
    have hle : d (j * 2) ≤ t := by
      rcases hj with h1 | h1
      · exact h1.2.1
      · exact h1.2
    have := h.le (i := i + 1) (j := j) (by omega) hjn
    have e : (i + 1) * 2 = i * 2 + 2 := by ring
    rw [e] at this
    linarith
  by_cases hl : d ((n - 1) * 2) ≤ t
  · refine ⟨n - 1, _, C52_after d n hn h t hl interp, Or.inr ⟨by omega, hl⟩, ?_, fun _ => rfl⟩
    intro j hj
    have hA : Active d n t (n - 1) := Or.inr ⟨by omega, hl⟩
    exact le_antisymm (huniq _ _ hA hj) (huniq _ _ hj hA)
  · push Not at hl
    have hex : ∃ i, i + 1 < n ∧ d (i * 2) ≤ t ∧ t < d (i * 2 + 2) := by
      have hP : ∃ m, t < d (m * 2) := ⟨n - 1, hl⟩
      classical
      let m := Nat.find hP
      have hm : t < d (m * 2) := Nat.find_spec hP
      have hmin : ∀ k, k < m → ¬ t < d (k * 2) := fun k hk => Nat.find_min hP hk
      have hmn : m ≤ n - 1 := Nat.find_min' hP hl
      have hm0 : m ≠ 0 := by
        intro h0
        rw [h0] at hm
        simp at hm
        linarith
      refine ⟨m - 1, by omega, ?_, ?_⟩
      · have := hmin (m - 1) (by omega)
        push Not at this
        exact this
      · have e : (m - 1) * 2 + 2 = m * 2 := by omega
        rw [e]; exact hm
    obtain ⟨i, hi, h1, h2⟩ := hex
    have hA : Active d n t i := Or.inl ⟨hi, h1, h2⟩
    obtain ⟨e1, v, e2, _⟩ := C52_bracket d n h t i hi h1 h2
    cases interp with
    | false =>
      exact ⟨i, _, e1, hA, fun j hj => le_antisymm (huniq _ _ hA hj) (huniq _ _ hj hA), fun _ => rfl⟩
    | true =>
      exact ⟨i, v, e2, hA, fun j hj => le_antisymm (huniq _ _ hA hj) (huniq _ _ hj hA),
        fun hc => by cases hc⟩

example : (0 : ℕ) < 3 ∧ Increasing exSeries 3 ∧ exSeries 0 ≤ 12 :=
  ⟨by norm_num, exSeries_increasing, by norm_num [exSeries]⟩

/-- C52 (before the start): a time before the first sample gets the *last* value of the dataset, not
the first; so a simulation starting at 0 with data from time 10 on begins with the final value. -/
theorem C52_before_violated (d : ℕ → ℝ) (n : ℕ) (hn : 0 < n) (h : Increasing d n) (t : ℝ)
    (ht : t < d 0) (interp : Bool) :
    getCurrentData d n t interp = some (n - 1, d ((n - 1) * 2 + 1)) := by
  have hb : bracketIdx d n t = none := by
    apply bracketIdx_none
    intro i hi
    left
    have := h.le (i := 0) (j := i) (by omega) (by omega)
    simp only [Nat.zero_mul] at this
    linarith
  unfold getCurrentData
  rw [if_neg (by omega), hb]
  have e : n * 2 - 1 = (n - 1) * 2 + 1 := by omega
  simp only [e]

example : getCurrentData exSeries 3 (-1) false = some (2, 1) ∧ exSeries 1 ≠ 1 := by
  refine ⟨?_, by norm_num [exSeries]⟩
  rw [C52_before_violated exSeries 3 (by norm_num) exSeries_increasing (-1) (by norm_num [exSeries])
    false]
  norm_num [exSeries]

/-- C52 (empty file): a file with fewer than two entries is accepted when it is opened, and the first
lookup reads in front of the array. -/
theorem C52_empty_violated (file : List ℝ) (h : file.length < 2) (t : ℝ) (interp : Bool) :
    getCurrentData (openHomog file interp).d (openHomog file interp).n t interp = none := by
  have : file.length / 2 = 0 := by omega
  simp [getCurrentData, openHomog, this]

example : ([3] : List ℝ).length < 2 := by norm_num

/-- C52 (bounds): all entries read lie within the file. -/
theorem C52_in_bounds (file : List ℝ) (i : ℕ)
    (hi : i + 1 < (openHomog file false).n) :
    i * 2 + 3 < file.length ∧ (openHomog file false).n * 2 - 1 < file.length := by
  simp only [openHomog] at *
  omega

example : 0 + 1 < (openHomog [0, 1, 2, 3, 9] false).n := by
  simp [openHomog]

/-! ## C55: piecewise-constant data persist -/

/-- The value an exact lookup would give at each time. -/
def lookups (s : Homog) (ts : List ℝ) : Option (List ℝ) :=
  ts.mapM fun t => (getCurrentData s.d s.n t s.interp).map Prod.snd

theorem getCurrentData_idx {d : ℕ → ℝ} {n : ℕ} {t : ℝ} {i : ℕ} {v : ℝ}
    (h : getCurrentData d n t false = some (i, v)) : v = d (i * 2 + 1) := by
  unfold getCurrentData at h
  by_cases hn : n = 0
  · rw [if_pos hn] at h; cases h
  · rw [if_neg hn] at h
    cases hb : bracketIdx d n t with
    | none =>
      rw [hb] at h
      simp only [Option.some.injEq, Prod.mk.injEq] at h
      obtain ⟨rfl, rfl⟩ := h
      congr 1; omega
    | some j =>
      rw [hb] at h
      simp only [Bool.false_eq_true, if_false, Option.some.injEq, Prod.mk.injEq] at h
      obtain ⟨rfl, rfl⟩ := h
      rfl

/-- The invariant of a piecewise-constant dataset: the array holds the sample of `prev`. -/
def Held (s : Homog) (v : ℝ) : Prop :=
  s.interp = true ∨ s.prev < 0 ∨ ∃ i : ℕ, s.prev = i ∧ v = s.d (i * 2 + 1)

theorem setHomog_step (s : Homog) (v : ℝ) (hs : Held s v) (t : ℝ) (i : ℕ) (x : ℝ)
    (h : getCurrentData s.d s.n t s.interp = some (i, x)) :
    ∃ s', setHomog s t (some v) = some (s', some x) ∧ Held s' x ∧ s'.d = s.d ∧ s'.n = s.n ∧
      s'.interp = s.interp := by
  unfold setHomog
  rw [h]
  simp only
  by_cases hc : s.interp ∨ (i : ℤ) ≠ s.prev
  · rw [if_pos hc]
    refine ⟨_, rfl, ?_, rfl, rfl, rfl⟩
    by_cases hi : s.interp = true
    · exact Or.inl hi
    · refine Or.inr (Or.inr ⟨i, rfl, ?_⟩)
      have : s.interp = false := by simpa using hi
      rw [this] at h
      exact getCurrentData_idx h
  · rw [if_neg hc]
    rw [not_or, not_not] at hc
    have hi : s.interp = false := by simpa using hc.1
    rw [hi] at h
    have hx := getCurrentData_idx h
    have hv : v = x := by
      rcases hs with h1 | h1 | ⟨j, h1, h2⟩
      · rw [hi] at h1; cases h1
      · omega
      · have : i = j := by omega
        rw [hx, h2, this]
    refine ⟨s, by rw [hv], ?_, rfl, rfl, rfl⟩
    rw [← hv]; exact hs

/-- C55 (rainfall): over every sequence of calls the values passed to RDycore are the values of the
dataset at the requested times, although the array is rewritten only when the active sample
changes. -/
theorem C55_rain (file : List ℝ) (interp : Bool) (ts : List ℝ) :
    rainHistory (openHomog file interp) (some 0) ts =
      (lookups (openHomog file interp) ts).map fun l => l.map some := by
  have key : ∀ (ts : List ℝ) (s : Homog) (v : ℝ), Held s v →
      rainHistory s (some v) ts = (lookups s ts).map fun l => l.map some := by
    intro ts
    induction ts with
    | nil => intro s v _; rfl
    | cons t ts ih =>
      intro s v hs
      unfold rainHistory
      cases hg : getCurrentData s.d s.n t s.interp with
      | none =>
        have : setHomog s t (some v) = none := by unfold setHomog; rw [hg]
        rw [this]
        simp [lookups, hg]
      | some p =>
        obtain ⟨i, x⟩ := p
        obtain ⟨s', h1, h2, h3, h4, h5⟩ := setHomog_step s v hs t i x hg
        rw [h1]
        simp only
        rw [ih s' x h2]
        have e : lookups s' ts = lookups s ts := by unfold lookups; rw [h3, h4, h5]
        rw [e]
        have e2 : lookups s (t :: ts) = (lookups s ts).map fun l => x :: l := by
          unfold lookups
          simp only [List.mapM_cons, hg, Option.map_some]
          cases List.mapM (fun t => Option.map Prod.snd (getCurrentData s.d s.n t s.interp)) ts <;>
            rfl
        rw [e2]
        cases lookups s ts <;> rfl
  exact key ts _ 0 (Or.inr (Or.inl (by simp [openHomog])))

/-- C55 (rainfall, in terms of the active sample): without interpolation every value passed on is the
active sample's, at any time from the first sample on. -/
theorem C55_rain_active (file : List ℝ) (hf : 2 ≤ file.length)
    (hinc : Increasing (fun i => file.getD i 0) (file.length / 2)) (ts : List ℝ)
    (hts : ∀ t ∈ ts, file.getD 0 0 ≤ t) (l : List (Option ℝ))
    (h : rainHistory (openHomog file false) (some 0) ts = some l) :
    l.length = ts.length ∧ ∀ j (hj : j < ts.length) (hl : j < l.length),
      ∃ i, Active (fun i => file.getD i 0) (file.length / 2) (ts[j]) i ∧
        l[j] = some (file.getD (i * 2 + 1) 0) := by
  rw [C55_rain] at h
  have key : ∀ (ts : List ℝ), (∀ t ∈ ts, file.getD 0 0 ≤ t) → ∀ (l : List ℝ),
      lookups (openHomog file false) ts = some l →
      l.length = ts.length ∧ ∀ j (hj : j < ts.length) (hl : j < l.length),
        ∃ i, Active (fun i => file.getD i 0) (file.length / 2) (ts[j]) i ∧
          l[j] = file.getD (i * 2 + 1) 0 := by
    intro ts
    induction ts with
    | nil =>
      intro _ l hl
      have : l = [] := by simpa [lookups, eq_comm] using hl
      subst this
      exact ⟨rfl, fun j hj => absurd hj (by simp)⟩
    | cons t ts ih =>
      intro hts l hl
      obtain ⟨i, v, e1, e2, _, e4⟩ := C52_active (fun i => file.getD i 0) (file.length / 2)
        (by omega) hinc t (hts t (by simp)) false
      have e1' : getCurrentData (openHomog file false).d (openHomog file false).n t
          (openHomog file false).interp = some (i, v) := e1
      unfold lookups at hl
      simp only [List.mapM_cons, e1', Option.map_some] at hl
      cases hr : List.mapM (fun t => Option.map Prod.snd (getCurrentData (openHomog file false).d
          (openHomog file false).n t (openHomog file false).interp)) ts with
      | none => rw [hr] at hl; simp at hl
      | some l' =>
        rw [hr] at hl
        have hl2 : l = v :: l' := by simpa [eq_comm] using hl
        subst hl2
        obtain ⟨a1, a2⟩ := ih (fun t ht => hts t (by simp [ht])) l' hr
        refine ⟨by simp [a1], ?_⟩
        intro j hj hjl
        cases j with
        | zero => exact ⟨i, e2, e4 rfl⟩
        | succ j => exact a2 j (by simpa using hj) (by simpa using hjl)
  cases hl : lookups (openHomog file false) ts with
  | none => rw [hl] at h; simp at h
  | some l' =>
    rw [hl] at h
    have : l = l'.map some := by simpa [eq_comm] using h
    subst this
    obtain ⟨a1, a2⟩ := key ts hts l' hl
    refine ⟨by simp [a1], ?_⟩
    intro j hj hjl
    obtain ⟨i, b1, b2⟩ := a2 j hj (by simpa using hjl)
    exact ⟨i, b1, by simp [b2]⟩

example : 2 ≤ ([0, 5, 10, 7, 20, 1] : List ℝ).length ∧
    Increasing (fun i => ([0, 5, 10, 7, 20, 1] : List ℝ).getD i 0) 3 ∧
    ∀ t ∈ ([1, 2, 11, 15, 30, 31] : List ℝ), ([0, 5, 10, 7, 20, 1] : List ℝ).getD 0 0 ≤ t :=
  ⟨by norm_num, exSeries_increasing, by intro t ht; simp at ht; rcases ht with h | h | h | h | h | h
    <;> rw [h] <;> norm_num⟩

/-- C55 (boundary values): the same for prescribed boundary values; the prescribed discharges are
zero. -/
theorem C55_boundary (file : List ℝ) (interp : Bool) (ts : List ℝ) :
    boundaryHistory (openHomog file interp) (0, 0, 0) ts =
      (lookups (openHomog file interp) ts).map fun l => l.map fun x => (x, (0 : ℝ), (0 : ℝ)) := by
  have key : ∀ (ts : List ℝ) (s : Homog) (v : ℝ), Held s v →
      boundaryHistory s (v, 0, 0) ts =
        (lookups s ts).map fun l => l.map fun x => (x, (0 : ℝ), (0 : ℝ)) := by
    intro ts
    induction ts with
    | nil => intro s v _; rfl
    | cons t ts ih =>
      intro s v hs
      unfold boundaryHistory
      cases hg : getCurrentData s.d s.n t s.interp with
      | none =>
        have : setHomogBoundary s t (v, 0, 0) = none := by unfold setHomogBoundary; rw [hg]
        rw [this]
        simp [lookups, hg]
      | some p =>
        obtain ⟨i, x⟩ := p
        obtain ⟨s', h1, h2, h3, h4, h5⟩ := setHomog_step s v hs t i x hg
        have h1' : setHomogBoundary s t (v, 0, 0) = some (s', (x, 0, 0)) := by
          unfold setHomog at h1
          unfold setHomogBoundary
          rw [hg] at h1 ⊢
          simp only at h1 ⊢
          by_cases hc : s.interp ∨ (i : ℤ) ≠ s.prev
          · rw [if_pos hc] at h1 ⊢
            simp only [Option.some.injEq, Prod.mk.injEq] at h1
            rw [h1.1]
          · rw [if_neg hc] at h1 ⊢
            simp only [Option.some.injEq, Prod.mk.injEq] at h1
            rw [h1.1, h1.2]
        rw [h1']
        simp only
        rw [ih s' x h2]
        have e : lookups s' ts = lookups s ts := by unfold lookups; rw [h3, h4, h5]
        rw [e]
        have e2 : lookups s (t :: ts) = (lookups s ts).map fun l => x :: l := by
          unfold lookups
          simp only [List.mapM_cons, hg, Option.map_some]
          cases List.mapM (fun t => Option.map Prod.snd (getCurrentData s.d s.n t s.interp)) ts <;>
            rfl
        rw [e2]
        cases lookups s ts <;> rfl
  exact key ts _ 0 (Or.inr (Or.inl (by simp [openHomog])))

/-- C55 (rainfall per region): a call passes on the dataset's value whenever the active sample
differs from that of the previous call — in particular at the first call — or the dataset is
interpolated.  Missing: all other calls, see below. -/
theorem C55_multi_partial (s : Homog) (t : ℝ) (i : ℕ) (x : ℝ)
    (h : getCurrentData s.d s.n t s.interp = some (i, x)) (hc : s.interp = true ∨ (i : ℤ) ≠ s.prev) :
    ∃ s', setHomog s t none = some (s', some x) ∧ s'.prev = i := by
  unfold setHomog
  rw [h]
  simp only
  rw [if_pos hc]
  exact ⟨_, rfl, rfl⟩

example : getCurrentData (openHomog [0, 5, 10, 7, 20, 1] false).d 3 12 false = some (1, 7) ∧
    ((1 : ℕ) : ℤ) ≠ (openHomog [0, 5, 10, 7, 20, 1] false).prev := by
  refine ⟨?_, by simp [openHomog]⟩
  have := (C52_bracket exSeries 3 exSeries_increasing 12 1 (by norm_num) (by norm_num [exSeries])
    (by norm_num [exSeries])).1
  have e : exSeries (1 * 2 + 1) = 7 := by norm_num [exSeries]
  rw [e] at this
  exact this

/-- C55 (rainfall per region): the second of two calls within the same interval of a
piecewise-constant dataset passes an uninitialised value on to RDycore. -/
theorem C55_multi_violated (file : List ℝ)
    (hinc : Increasing (fun i => file.getD i 0) (file.length / 2)) (i : ℕ)
    (hi : i + 1 < file.length / 2) (t t' : ℝ) (h1 : file.getD (i * 2) 0 ≤ t) (h2 : t ≤ t')
    (h3 : t' < file.getD (i * 2 + 2) 0) :
    multiRainHistory (openHomog file false) [t, t'] =
      some [some (file.getD (i * 2 + 1) 0), none] := by
  have e1 : getCurrentData (fun i => file.getD i 0) (file.length / 2) t false =
      some (i, file.getD (i * 2 + 1) 0) := (C52_bracket _ _ hinc t i hi h1 (by linarith)).1
  have e2 : getCurrentData (fun i => file.getD i 0) (file.length / 2) t' false =
      some (i, file.getD (i * 2 + 1) 0) := (C52_bracket _ _ hinc t' i hi (by linarith) h3).1
  have s1 : setHomog (openHomog file false) t none =
      some ({ openHomog file false with prev := i }, some (file.getD (i * 2 + 1) 0)) := by
    unfold setHomog
    have e1' : getCurrentData (openHomog file false).d (openHomog file false).n t
        (openHomog file false).interp = some (i, file.getD (i * 2 + 1) 0) := e1
    rw [e1']
    simp only
    have hc : (openHomog file false).interp = true ∨ (i : ℤ) ≠ (openHomog file false).prev := by
      right; simp [openHomog]
    rw [if_pos hc]
  have s2 : setHomog { openHomog file false with prev := (i : ℤ) } t' none =
      some ({ openHomog file false with prev := (i : ℤ) }, none) := by
    unfold setHomog
    simp only
    have e2' : getCurrentData (openHomog file false).d (openHomog file false).n t'
        (openHomog file false).interp = some (i, file.getD (i * 2 + 1) 0) := e2
    rw [e2']
    simp only
    have hc : ¬ ((openHomog file false).interp = true ∨ (i : ℤ) ≠ (i : ℤ)) := by
      simp [openHomog]
    rw [if_neg hc]
  unfold multiRainHistory
  rw [s1]
  simp only
  unfold multiRainHistory
  rw [s2]
  rfl

example : multiRainHistory (openHomog [0, 5, 10, 7, 20, 1] false) [1, 2] = some [some 5, none] := by
  have := C55_multi_violated [0, 5, 10, 7, 20, 1] exSeries_increasing 0 (by norm_num) 1 2
    (by norm_num) (by norm_num) (by norm_num)
  simpa using this

/-- C55 (interpolation per region): asking for interpolation has no effect on datasets given per
region; what they do depends on uninitialised memory.  With a zero there the value is not the
interpolated one. -/
theorem C55_multi_interpolation_violated (file : List ℝ) (mem : Bool) (t : ℝ) :
    setHomog (openMulti file true mem) t none = setHomog (openMulti file false mem) t none ∧
    (∃ s', setHomog (openMulti [0, 0, 10, 1] true false) 5 none = some (s', some 0)) ∧
    (∃ s', setHomog (openHomog [0, 0, 10, 1] true) 5 none = some (s', some (1 / 2))) := by
  have hinc : Increasing (fun i => ([0, 0, 10, 1] : List ℝ).getD i 0) 2 := by
    intro i hi
    have : i = 0 := by omega
    subst this; norm_num
  obtain ⟨e1, v, e2, e3⟩ := C52_bracket (fun i => ([0, 0, 10, 1] : List ℝ).getD i 0) 2 hinc 5 0
    (by norm_num) (by norm_num) (by norm_num)
  have hv : v = 1 / 2 := by
    have : (v - 0) * (10 - 0) = (5 - 0) * (1 - 0) := by simpa using e3
    linarith
  subst hv
  refine ⟨rfl, ?_, ?_⟩
  · obtain ⟨s', h, _⟩ := C55_multi_partial (openMulti [0, 0, 10, 1] true false) 5 0 0
      (by simpa [openMulti, openHomog] using e1) (Or.inr (by simp [openMulti, openHomog]))
    exact ⟨s', h⟩
  · obtain ⟨s', h, _⟩ := C55_multi_partial (openHomog [0, 0, 10, 1] true) 5 0 (1 / 2)
      (by simpa [openHomog] using e2) (Or.inl rfl)
    exact ⟨s', h⟩

/-! ## C53: hourly files -/

/-- Specification: the hourly file covering time `t`. -/
def hourOf (t : ℝ) : ℕ := ⌊t / 3600⌋₊

theorem nextFile_spec (k : ℕ) (t : ℝ) :
    nextFile k t = if (k : ℝ) * 3600 ≤ t then k + 1 else k := by
  unfold nextFile
  have : t / 3600 ≥ (k : ℝ) * 1 ↔ (k : ℝ) * 3600 ≤ t := by
    rw [mul_one, ge_iff_le, le_div_iff₀ (by norm_num)]
  simp only [this]

theorem hourOf_eq (t : ℝ) (k : ℕ) (h1 : (k : ℝ) * 3600 ≤ t) (h2 : t < ((k : ℝ) + 1) * 3600) :
    hourOf t = k := by
  unfold hourOf
  have hk : (0 : ℝ) ≤ k := Nat.cast_nonneg k
  rw [Nat.floor_eq_iff (by apply div_nonneg <;> nlinarith)]
  constructor
  · rw [le_div_iff₀ (by norm_num)]; exact h1
  · rw [div_lt_iff₀ (by norm_num)]; exact h2

theorem hourOf_bounds (t : ℝ) (h : 0 ≤ t) :
    (hourOf t : ℝ) * 3600 ≤ t ∧ t < ((hourOf t : ℝ) + 1) * 3600 := by
  unfold hourOf
  have h0 : 0 ≤ t / 3600 := by positivity
  constructor
  · have := Nat.floor_le h0
    rwa [le_div_iff₀ (by norm_num)] at this
  · have := Nat.lt_floor_add_one (t / 3600)
    rwa [div_lt_iff₀ (by norm_num)] at this

/-- C53 (partial): if the calls start within the first hour and never advance by more than an
hour, every call uses the file covering its time.  Missing: longer coupling intervals and
restarts, where it fails (below). -/
theorem C53_covering_partial (ts : List ℝ)
    (hstep : List.IsChain (fun a b => a ≤ b ∧ b ≤ a + 3600) (0 :: ts)) :
    fileHistory 1 ts = ts.map hourOf := by
  have key : ∀ (ts : List ℝ) (a : ℝ) (k : ℕ), (k : ℝ) * 3600 ≤ a → a < ((k : ℝ) + 1) * 3600 →
      List.IsChain (fun a b => a ≤ b ∧ b ≤ a + 3600) (a :: ts) →
      fileHistory (k + 1) ts = ts.map hourOf := by
    intro ts
    induction ts with
    | nil => intros; rfl
    | cons t ts ih =>
      intro a k h1 h2 hch
      rw [List.isChain_cons_cons] at hch
      obtain ⟨⟨h3, h4⟩, h5⟩ := hch
      unfold fileHistory
      rw [nextFile_spec]
      by_cases hc : ((k + 1 : ℕ) : ℝ) * 3600 ≤ t
      · rw [if_pos hc]
        have hc' : ((k + 1 : ℕ) : ℝ) = (k : ℝ) + 1 := by push_cast; ring
        have hlt : t < (((k + 1 : ℕ) : ℝ) + 1) * 3600 := by rw [hc']; linarith
        rw [ih t (k + 1) hc hlt h5]
        simp only [List.map_cons, List.cons.injEq, and_true]
        rw [hourOf_eq t (k + 1) hc hlt]
        omega
      · rw [if_neg hc]
        push Not at hc
        push_cast at hc
        rw [ih t k (by linarith) hc h5]
        simp only [List.map_cons, List.cons.injEq, and_true]
        rw [hourOf_eq t k (by linarith) hc]
        omega
  exact key ts 0 0 (by norm_num) (by norm_num) hstep

example : List.IsChain (fun a b : ℝ => a ≤ b ∧ b ≤ a + 3600) (0 :: [0, 1800, 3600, 7000, 9000]) := by
  simp only [List.isChain_cons_cons, List.isChain_singleton]
  norm_num

/-- C53 (never ahead): with non-decreasing non-negative times no call uses a file from the future. -/
theorem C53_never_ahead (ts : List ℝ) (h0 : ∀ t ∈ ts, 0 ≤ t)
    (hs : List.IsChain (fun a b => a ≤ b) (0 :: ts)) :
    List.Forall₂ (fun f t => f ≤ hourOf t) (fileHistory 1 ts) ts := by
  have key : ∀ (ts : List ℝ) (a : ℝ) (k : ℕ), (∀ t ∈ ts, 0 ≤ t) → (k : ℝ) * 3600 ≤ a →
      List.IsChain (fun a b => a ≤ b) (a :: ts) →
      List.Forall₂ (fun f t => f ≤ hourOf t) (fileHistory (k + 1) ts) ts := by
    intro ts
    induction ts with
    | nil => intros; exact List.Forall₂.nil
    | cons t ts ih =>
      intro a k h0 h1 hch
      rw [List.isChain_cons_cons] at hch
      obtain ⟨h3, h5⟩ := hch
      have ht := hourOf_bounds t (h0 t (by simp))
      have hle : ∀ m : ℕ, (m : ℝ) * 3600 ≤ t → m ≤ hourOf t := by
        intro m hm
        have h6 : (m : ℝ) < (hourOf t : ℝ) + 1 := by linarith [ht.2]
        have h7 : m < hourOf t + 1 := by exact_mod_cast h6
        omega
      unfold fileHistory
      rw [nextFile_spec]
      by_cases hc : ((k + 1 : ℕ) : ℝ) * 3600 ≤ t
      · rw [if_pos hc]
        refine List.Forall₂.cons ?_ (ih t (k + 1) (fun t ht => h0 t (by simp [ht])) hc h5)
        have := hle _ hc
        omega
      · rw [if_neg hc]
        refine List.Forall₂.cons ?_ (ih t k (fun t ht => h0 t (by simp [ht])) (by linarith) h5)
        have := hle k (by linarith)
        omega
  exact key ts 0 0 h0 (by norm_num) hs

example : List.IsChain (fun a b : ℝ => a ≤ b) (0 :: [10, 20000, 30000]) := by
  simp only [List.isChain_cons_cons, List.isChain_singleton]
  norm_num

/-- C53 (violated): with a coupling interval of two hours the call at hour `2 j` uses file `j`: the
rainfall lags behind by ever more hours, and the second half of the data is never used. -/
theorem C53_two_hour_violated (n : ℕ) :
    fileHistory 1 ((List.range n).map fun j : ℕ => (j : ℝ) * 7200) = List.range n ∧
    ∀ j : ℕ, hourOf ((j : ℝ) * 7200) = 2 * j := by
  constructor
  · have key : ∀ (n a : ℕ), fileHistory (a + 1) ((List.range' (a + 1) n).map fun j : ℕ => (j : ℝ) * 7200) =
        List.range' (a + 1) n := by
      intro n
      induction n with
      | zero => intro a; rfl
      | succ n ih =>
        intro a
        rw [List.range'_succ, List.map_cons]
        unfold fileHistory
        rw [nextFile_spec]
        have hc : ((a + 1 : ℕ) : ℝ) * 3600 ≤ ((a + 1 : ℕ) : ℝ) * 7200 := by
          have : (0 : ℝ) ≤ ((a + 1 : ℕ) : ℝ) := Nat.cast_nonneg _
          linarith
        rw [if_pos hc, ih (a + 1)]
        simp
    cases n with
    | zero => rfl
    | succ n =>
      rw [List.range_eq_range', List.range'_succ, List.map_cons]
      unfold fileHistory
      rw [nextFile_spec]
      have hc : ¬ ((1 : ℕ) : ℝ) * 3600 ≤ ((0 : ℕ) : ℝ) * 7200 := by norm_num
      rw [if_neg hc]
      have := key n 0
      simp only [Nat.zero_add] at this ⊢
      rw [this]
  · intro j
    have hj : (0 : ℝ) ≤ j := Nat.cast_nonneg j
    apply hourOf_eq
    · push_cast; linarith
    · push_cast; linarith

/-- C53 (violated): a simulation that begins at or after the third hour (a restart) starts with the
second file. -/
theorem C53_restart_violated (t : ℝ) (h : 7200 ≤ t) :
    fileHistory 1 [t] = [1] ∧ 2 ≤ hourOf t := by
  constructor
  · unfold fileHistory
    rw [nextFile_spec, if_pos (by push_cast; linarith)]
    rfl
  · have := hourOf_bounds t (by linarith)
    have h6 : (1 : ℝ) < (hourOf t : ℝ) := by linarith [this.2]
    have h7 : 1 < hourOf t := by exact_mod_cast h6
    omega

/-! ## C54: nearest neighbour -/

/-- Specification: squared distance. -/
def sqDist (p q : ℝ × ℝ) : ℝ := (p.1 - q.1) ^ 2 + (p.2 - q.2) ^ 2

theorem dist2D_eq (p q : ℝ × ℝ) : dist2D p q = Real.sqrt (sqDist p q) := by
  unfold dist2D sqDist
  congr 1; ring

theorem sqDist_nonneg (p q : ℝ × ℝ) : 0 ≤ sqDist p q := by unfold sqDist; positivity

theorem dist2D_le_iff (p q r : ℝ × ℝ) : dist2D p q ≤ dist2D p r ↔ sqDist p q ≤ sqDist p r := by
  rw [dist2D_eq, dist2D_eq, Real.sqrt_le_sqrt_iff (sqDist_nonneg p r)]

theorem nearest_fold (p : ℝ × ℝ) (pts : ℕ → ℝ × ℝ) (n : ℕ) :
    match (List.range n).foldl (nearestStep p pts) none with
    | none => n = 0
    | some (m, i) => i < n ∧ m = dist2D p (pts i) ∧ (∀ k, k < n → m ≤ dist2D p (pts k)) ∧
        ∀ k, k < i → m < dist2D p (pts k) := by
  induction n with
  | zero => rfl
  | succ n ih =>
    rw [List.range_succ, List.foldl_append, List.foldl_cons, List.foldl_nil]
    cases h : (List.range n).foldl (nearestStep p pts) none with
    | none =>
      rw [h] at ih
      simp only at ih
      subst ih
      simp only [nearestStep]
      refine ⟨by omega, trivial, ?_, ?_⟩
      · intro k hk
        have : k = 0 := by omega
        rw [this]
      · intro k hk; omega
    | some s =>
      obtain ⟨m, i⟩ := s
      rw [h] at ih
      simp only at ih
      obtain ⟨h1, h2, h3, h4⟩ := ih
      simp only [nearestStep]
      by_cases hc : dist2D p (pts n) < m
      · rw [if_pos hc]
        refine ⟨by omega, rfl, ?_, ?_⟩
        · intro k hk
          rcases Nat.lt_or_ge k n with hk' | hk'
          · exact le_trans hc.le (h3 k hk')
          · have : k = n := by omega
            rw [this]
        · intro k hk
          exact lt_of_lt_of_le hc (h3 k hk)
      · rw [if_neg hc]
        refine ⟨by omega, h2, ?_, h4⟩
        intro k hk
        rcases Nat.lt_or_ge k n with hk' | hk'
        · exact h3 k hk'
        · have : k = n := by omega
          rw [this]
          push Not at hc
          exact hc

/-- C54 (unstructured data): every mesh element is mapped to an existing data point at minimum
distance, the first one if there are several. -/
theorem C54_unstructured (p : ℝ × ℝ) (pts : ℕ → ℝ × ℝ) (n : ℕ) (hn : 0 < n) :
    nearestUnstructured p pts n < n ∧
    (∀ k, k < n → sqDist p (pts (nearestUnstructured p pts n)) ≤ sqDist p (pts k)) ∧
    (∀ k, k < nearestUnstructured p pts n →
      sqDist p (pts (nearestUnstructured p pts n)) < sqDist p (pts k)) := by
  have h := nearest_fold p pts n
  unfold nearestUnstructured
  cases hf : (List.range n).foldl (nearestStep p pts) none with
  | none => rw [hf] at h; simp only at h; omega
  | some s =>
    obtain ⟨m, i⟩ := s
    rw [hf] at h
    simp only at h ⊢
    obtain ⟨h1, h2, h3, h4⟩ := h
    refine ⟨h1, ?_, ?_⟩
    · intro k hk
      rw [← dist2D_le_iff, ← h2]
      exact h3 k hk
    · intro k hk
      have := h4 k hk
      rw [h2] at this
      rw [← not_le, ← dist2D_le_iff, not_le]
      exact this

example : (0 : ℕ) < 4 := by norm_num

theorem raster_fold (p : ℝ × ℝ) (r : Raster) (m0 : ℝ) (n : ℕ) :
    ((List.range n).foldl (rasterStep p r) (m0, 0) = (m0, 0) ∧
      ∀ k, k < n → m0 ≤ dist2D p (rasterCentre r k)) ∨
    (∃ i, (List.range n).foldl (rasterStep p r) (m0, 0) = (dist2D p (rasterCentre r i), i) ∧ i < n ∧
      dist2D p (rasterCentre r i) < m0 ∧
      (∀ k, k < n → dist2D p (rasterCentre r i) ≤ dist2D p (rasterCentre r k)) ∧
      ∀ k, k < i → dist2D p (rasterCentre r i) < dist2D p (rasterCentre r k)) := by
  induction n with
  | zero => exact Or.inl ⟨rfl, fun k hk => absurd hk (by omega)⟩
  | succ n ih =>
    rw [List.range_succ, List.foldl_append, List.foldl_cons, List.foldl_nil]
    rcases ih with ⟨h1, h2⟩ | ⟨i, h1, h2, h3, h4, h5⟩
    · rw [h1]
      unfold rasterStep
      simp only
      by_cases hc : dist2D p (rasterCentre r n) < m0
      · rw [if_pos hc]
        refine Or.inr ⟨n, rfl, by omega, hc, ?_, ?_⟩
        · intro k hk
          rcases Nat.lt_or_ge k n with hk' | hk'
          · exact le_trans hc.le (h2 k hk')
          · have : k = n := by omega
            rw [this]
        · intro k hk
          exact lt_of_lt_of_le hc (h2 k hk)
      · rw [if_neg hc]
        refine Or.inl ⟨rfl, ?_⟩
        intro k hk
        rcases Nat.lt_or_ge k n with hk' | hk'
        · exact h2 k hk'
        · have : k = n := by omega
          rw [this]
          push Not at hc
          exact hc
    · rw [h1]
      unfold rasterStep
      simp only
      right
      by_cases hc : dist2D p (rasterCentre r n) < dist2D p (rasterCentre r i)
      · rw [if_pos hc]
        refine ⟨n, rfl, by omega, by linarith, ?_, ?_⟩
        · intro k hk
          rcases Nat.lt_or_ge k n with hk' | hk'
          · exact le_trans hc.le (h4 k hk')
          · have : k = n := by omega
            rw [this]
        · intro k hk
          exact lt_of_lt_of_le hc (h4 k hk)
      · rw [if_neg hc]
        refine ⟨i, rfl, by omega, h3, ?_, h5⟩
        intro k hk
        rcases Nat.lt_or_ge k n with hk' | hk'
        · exact h4 k hk'
        · have : k = n := by omega
          rw [this]
          push Not at hc
          exact hc

/-- C54 (raster, general form): a mesh cell that is within the search radius (the larger side of the
raster plus one cell) of some raster cell is mapped to a nearest one. -/
theorem C54_raster_near_partial (p : ℝ × ℝ) (r : Raster) (j : ℕ) (hj : j < r.nrows * r.ncols)
    (hd : Real.sqrt (sqDist p (rasterCentre r j)) <
      (((max r.ncols r.nrows : ℕ) : ℝ) + 1) * r.size) :
    nearestRaster p r < r.nrows * r.ncols ∧
    ∀ k, k < r.nrows * r.ncols →
      sqDist p (rasterCentre r (nearestRaster p r)) ≤ sqDist p (rasterCentre r k) := by
  unfold nearestRaster
  rw [← dist2D_eq] at hd
  rcases raster_fold p r ((((max r.ncols r.nrows : ℕ) : ℝ) + 1) * r.size) (r.nrows * r.ncols) with
    ⟨_, h2⟩ | ⟨i, h1, h2, _, h4, _⟩
  · exact absurd (h2 j hj) (not_le.mpr hd)
  · rw [h1]
    refine ⟨h2, ?_⟩
    intro k hk
    rw [← dist2D_le_iff]
    exact h4 k hk

/-- Specification: `p` lies in the raster cell of row `a` (from the north) and column `b`, boundary
included. -/
def InPixel (r : Raster) (a b : ℕ) (p : ℝ × ℝ) : Prop :=
  r.xlc + (b : ℝ) * r.size ≤ p.1 ∧ p.1 ≤ r.xlc + ((b : ℝ) + 1) * r.size ∧
  r.ylc + ((r.nrows : ℝ) - 1 - (a : ℝ)) * r.size ≤ p.2 ∧
  p.2 ≤ r.ylc + ((r.nrows : ℝ) - (a : ℝ)) * r.size

theorem rasterCentre_at (r : Raster) (a b : ℕ) (hb : b < r.ncols) :
    rasterCentre r (a * r.ncols + b) =
      (r.xlc + (b : ℝ) * r.size + r.size / 2,
       r.ylc + ((r.nrows : ℝ) - 1 - (a : ℝ)) * r.size + r.size / 2) := by
  unfold rasterCentre
  have h1 : (a * r.ncols + b) % r.ncols = b := by
    rw [Nat.add_comm, Nat.add_mul_mod_self_right, Nat.mod_eq_of_lt hb]
  have h2 : (a * r.ncols + b) / r.ncols = a := by
    rw [Nat.add_comm, Nat.add_mul_div_right _ _ (by omega), Nat.div_eq_of_lt hb, Nat.zero_add]
  rw [h1, h2]

theorem sqDist_pixel (r : Raster) (a b : ℕ) (hb : b < r.ncols) (p : ℝ × ℝ)
    (hp : InPixel r a b p) :
    sqDist p (rasterCentre r (a * r.ncols + b)) ≤ r.size ^ 2 / 2 := by
  obtain ⟨h1, h2, h3, h4⟩ := hp
  rw [rasterCentre_at r a b hb]
  unfold sqDist
  simp only
  have a1 : (p.1 - (r.xlc + (b : ℝ) * r.size + r.size / 2)) ^ 2 ≤ (r.size / 2) ^ 2 := by
    apply sq_le_sq'
    · linarith
    · linarith
  have a2 : (p.2 - (r.ylc + ((r.nrows : ℝ) - 1 - (a : ℝ)) * r.size + r.size / 2)) ^ 2 ≤
      (r.size / 2) ^ 2 := by
    apply sq_le_sq'
    · linarith
    · linarith
  nlinarith

/-- C54 (raster): every mesh cell inside the raster is mapped to a nearest raster cell. -/
theorem C54_raster_partial (r : Raster) (hs : 0 < r.size) (a b : ℕ) (ha : a < r.nrows)
    (hb : b < r.ncols) (p : ℝ × ℝ) (hp : InPixel r a b p) :
    nearestRaster p r < r.nrows * r.ncols ∧
    ∀ k, k < r.nrows * r.ncols →
      sqDist p (rasterCentre r (nearestRaster p r)) ≤ sqDist p (rasterCentre r k) := by
  have hidx : a * r.ncols + b < r.nrows * r.ncols := by
    have : (a + 1) * r.ncols ≤ r.nrows * r.ncols := Nat.mul_le_mul_right _ ha
    rw [Nat.add_mul, Nat.one_mul] at this
    omega
  refine C54_raster_near_partial p r (a * r.ncols + b) hidx ?_
  have h1 := sqDist_pixel r a b hb p hp
  have h2 : Real.sqrt (sqDist p (rasterCentre r (a * r.ncols + b))) ≤ r.size := by
    rw [Real.sqrt_le_left hs.le]
    nlinarith
  have h3 : (1 : ℝ) ≤ ((max r.ncols r.nrows : ℕ) : ℝ) := by
    have : 1 ≤ max r.ncols r.nrows := le_trans (by omega) (le_max_left _ _)
    exact_mod_cast this
  nlinarith

/-- a cell inside the raster of three columns and three rows of size 10 with corner (100, 200) -/
example : nearestRaster (113, 204) ⟨3, 3, 100, 200, 10⟩ < 3 * 3 :=
  (C54_raster_partial ⟨3, 3, 100, 200, 10⟩ (by norm_num) 2 1 (by norm_num) (by norm_num) (113, 204)
    (by unfold InPixel; norm_num)).1

/-- C54 (raster cell): a mesh cell strictly inside a raster cell gets exactly that cell's data; the
value used is the entry of row `a` and column `b` of the file, converted from mm/h to m/s. -/
theorem C54_raster_pixel (r : Raster) (hs : 0 < r.size) (a b : ℕ) (ha : a < r.nrows)
    (hb : b < r.ncols) (p : ℝ × ℝ)
    (h1 : r.xlc + (b : ℝ) * r.size < p.1) (h2 : p.1 < r.xlc + ((b : ℝ) + 1) * r.size)
    (h3 : r.ylc + ((r.nrows : ℝ) - 1 - (a : ℝ)) * r.size < p.2)
    (h4 : p.2 < r.ylc + ((r.nrows : ℝ) - (a : ℝ)) * r.size) (file : ℕ → ℝ) :
    nearestRaster p r = a * r.ncols + b ∧
    rasterValue file (nearestRaster p r) * 1000 * 3600 = file (5 + a * r.ncols + b) := by
  have hidx : a * r.ncols + b < r.nrows * r.ncols := by
    have : (a + 1) * r.ncols ≤ r.nrows * r.ncols := Nat.mul_le_mul_right _ ha
    rw [Nat.add_mul, Nat.one_mul] at this
    omega
  obtain ⟨n1, n2⟩ := C54_raster_partial r hs a b ha hb p ⟨h1.le, h2.le, h3.le, h4.le⟩
  have hle := n2 _ hidx
  generalize hk : nearestRaster p r = k at *
  have hcols : 0 < r.ncols := by omega
  have hkd : k / r.ncols * r.ncols + k % r.ncols = k := Nat.div_add_mod' k r.ncols
  have hkm : k % r.ncols < r.ncols := Nat.mod_lt _ hcols
  rw [← hkd, rasterCentre_at r _ _ hkm, rasterCentre_at r a b hb] at hle
  unfold sqDist at hle
  simp only at hle
  -- write everything in units of the raster size, relative to the centre of cell (a, b)
  have key : ∀ (i j : ℕ) (u : ℝ), (-(r.size / 2) < u) → (u < r.size / 2) →
      u ^ 2 ≤ (u - ((i : ℝ) - (j : ℝ)) * r.size) ^ 2 ∧
      ((u - ((i : ℝ) - (j : ℝ)) * r.size) ^ 2 ≤ u ^ 2 → i = j) := by
    intro i j u hu1 hu2
    rcases lt_trichotomy i j with hij | hij | hij
    · have hc : (i : ℝ) + 1 ≤ (j : ℝ) := by exact_mod_cast hij
      have hm : r.size ≤ ((j : ℝ) - (i : ℝ)) * r.size := by nlinarith
      generalize hw : ((j : ℝ) - (i : ℝ)) * r.size = w at hm
      have e : ((i : ℝ) - (j : ℝ)) * r.size = -w := by rw [← hw]; ring
      rw [e]
      have : u ^ 2 < (u - -w) ^ 2 := by nlinarith
      exact ⟨this.le, fun h => absurd h (not_le.mpr this)⟩
    · subst hij
      simp
    · have hc : (j : ℝ) + 1 ≤ (i : ℝ) := by exact_mod_cast hij
      have hm : r.size ≤ ((i : ℝ) - (j : ℝ)) * r.size := by nlinarith
      generalize hw : ((i : ℝ) - (j : ℝ)) * r.size = w at hm
      have : u ^ 2 < (u - w) ^ 2 := by nlinarith
      exact ⟨this.le, fun h => absurd h (not_le.mpr this)⟩
  obtain ⟨x1, x2⟩ := key (k % r.ncols) b (p.1 - (r.xlc + (b : ℝ) * r.size + r.size / 2))
    (by linarith) (by linarith)
  obtain ⟨y1, y2⟩ := key a (k / r.ncols)
    (p.2 - (r.ylc + ((r.nrows : ℝ) - 1 - (a : ℝ)) * r.size + r.size / 2))
    (by linarith) (by linarith)
  have ex : p.1 - (r.xlc + ((k % r.ncols : ℕ) : ℝ) * r.size + r.size / 2) =
      p.1 - (r.xlc + (b : ℝ) * r.size + r.size / 2) - (((k % r.ncols : ℕ) : ℝ) - (b : ℝ)) * r.size := by
    ring
  have ey : p.2 - (r.ylc + ((r.nrows : ℝ) - 1 - ((k / r.ncols : ℕ) : ℝ)) * r.size + r.size / 2) =
      p.2 - (r.ylc + ((r.nrows : ℝ) - 1 - (a : ℝ)) * r.size + r.size / 2) -
        ((a : ℝ) - ((k / r.ncols : ℕ) : ℝ)) * r.size := by
    ring
  rw [ex, ey] at hle
  have hb' : k % r.ncols = b := x2 (by linarith)
  have ha' : a = k / r.ncols := y2 (by linarith)
  have hkk : k = a * r.ncols + b := by rw [← hkd, hb', ← ha']
  refine ⟨hkk, ?_⟩
  unfold rasterValue
  have e : k + 5 = 5 + a * r.ncols + b := by rw [hkk]; ring
  rw [e]
  ring

example (file : ℕ → ℝ) : nearestRaster (113, 204) ⟨3, 3, 100, 200, 10⟩ = 2 * 3 + 1 :=
  (C54_raster_pixel ⟨3, 3, 100, 200, 10⟩ (by norm_num) 2 1 (by norm_num) (by norm_num) (113, 204)
    (by norm_num) (by norm_num) (by norm_num) (by norm_num) file).1

/-- A raster of two columns and three rows. -/
def exRaster : Raster := ⟨2, 3, 100, 200, 10⟩

example : (0 : ℝ) < exRaster.size ∧ 2 < exRaster.nrows ∧ 1 < exRaster.ncols ∧
    InPixel exRaster 2 1 (113, 204) := by
  refine ⟨by norm_num [exRaster], by norm_num [exRaster], by norm_num [exRaster], ?_⟩
  unfold InPixel exRaster
  norm_num

/-- C54 (violated): a mesh cell farther from the raster than the search radius silently gets the data
of raster cell 0 (the north-west corner), whichever cell is nearest. -/
theorem C54_raster_violated :
    nearestRaster (10, 1 / 2) ⟨2, 1, 0, 0, 1⟩ = 0 ∧
    sqDist (10, 1 / 2) (rasterCentre ⟨2, 1, 0, 0, 1⟩ 1) <
      sqDist (10, 1 / 2) (rasterCentre ⟨2, 1, 0, 0, 1⟩ 0) := by
  constructor
  · unfold nearestRaster
    rcases raster_fold (10, 1 / 2) ⟨2, 1, 0, 0, 1⟩
      ((((max 2 1 : ℕ) : ℝ) + 1) * 1) (1 * 2) with ⟨h1, _⟩ | ⟨i, _, h2, h3, _, _⟩
    · simp only
      rw [h1]
    · exfalso
      rw [dist2D_eq] at h3
      have hi : i = 0 ∨ i = 1 := by omega
      have h9 : (3 : ℝ) ≤ Real.sqrt (sqDist (10, 1 / 2) (rasterCentre ⟨2, 1, 0, 0, 1⟩ i)) := by
        apply Real.le_sqrt_of_sq_le
        rcases hi with rfl | rfl <;> norm_num [sqDist, rasterCentre]
      norm_num at h3
      linarith
  · norm_num [sqDist, rasterCentre]

/-! ## C71: rainfall reaches the cells it is meant for -/

/-- C71 (partial): when the mesh has a region with ID 1 made of all owned cells of the process, and no
other region with that ID, applying rainfall sets the water source of every owned cell to its own
value and nothing else.  Missing: all other meshes, see below. -/
theorem C71_single_partial (n : ℕ) (hn : 0 < n) (regions : List SrcRegion) (r : SrcRegion)
    (hr : r ∈ regions) (h1 : r.id = 1) (hid : ∀ s ∈ regions, s.id = 1 → s = r) (N : ℕ)
    (ho : r.owned = List.range N) (values : List ℝ) (hv : values.length = N) (data : ℕ → ℝ) :
    ∃ d, applyRain n regions values data = .ok d ∧
      (∀ o (hl : o < values.length), d (n * o) = values[o]) ∧
      ∀ o c, c < n → (c ≠ 0 ∨ N ≤ o) → d (n * o + c) = data (n * o + c) := by
  unfold applyRain
  by_cases h0 : values.length = 0
  · rw [if_pos h0]
    exact ⟨data, rfl, fun o hl => by omega, fun o c _ _ => rfl⟩
  · rw [if_neg h0]
    have h := C26_regional n regions r hr (by rw [h1]; exact hid) (by rw [ho]; exact List.nodup_range)
      0 hn values data
    have hl : values.length = r.owned.length := by rw [ho, hv]; simp
    rw [if_pos hl, h1] at h
    obtain ⟨d, e1, e2, e3⟩ := h
    refine ⟨d, e1, ?_, ?_⟩
    · intro o hlo
      have := e2 o (by omega) hlo
      rw [← this]
      congr 1
      have : r.owned[o]'(by omega) = o := by simp [ho]
      rw [this]; rfl
    · intro o c hc hoc
      apply e3 o c hc
      rcases hoc with h2 | h2
      · exact Or.inl h2
      · right; rw [ho]; simp; omega

example : (⟨1, List.range 4⟩ : SrcRegion) ∈ [(⟨1, List.range 4⟩ : SrcRegion)] ∧
    ([1, 2, 3, 4] : List ℝ).length = 4 := by simp

/-- C71 (violated): on a mesh without a region of ID 1 the rainfall is ignored without any error. -/
theorem C71_no_region_violated (n : ℕ) (regions : List SrcRegion) (h : ∀ r ∈ regions, r.id ≠ 1)
    (values : List ℝ) (data : ℕ → ℝ) : applyRain n regions values data = .ok data := by
  unfold applyRain
  by_cases h0 : values.length = 0
  · rw [if_pos h0]
  · rw [if_neg h0]
    exact C26_unknown_id n regions 1 h 0 values data

example : ∀ r ∈ [(⟨0, [0, 1]⟩ : SrcRegion), ⟨2, [2]⟩], r.id ≠ 1 := by simp

/-- C71 (several regions): on a mesh whose region 1 does not have all the owned cells, rainfall for
the whole domain is refused. -/
theorem C71_other_regions (n : ℕ) (hn : 0 < n) (regions : List SrcRegion) (r : SrcRegion)
    (hr : r ∈ regions) (h1 : r.id = 1) (hid : ∀ s ∈ regions, s.id = 1 → s = r)
    (hnd : r.owned.Nodup) (values : List ℝ) (hv : values.length ≠ r.owned.length)
    (h0 : values.length ≠ 0) (data : ℕ → ℝ) : applyRain n regions values data = .error := by
  unfold applyRain
  rw [if_neg h0]
  have h := C26_regional n regions r hr (by rw [h1]; exact hid) hnd 0 hn values data
  rw [if_neg hv, h1] at h
  exact h

example : (⟨1, [0]⟩ : SrcRegion) ∈ [(⟨1, [0]⟩ : SrcRegion), ⟨2, [1]⟩] ∧
    ([1, 2] : List ℝ).length ≠ [0].length := by simp

/-- C71 (rainfall per region, violated): the dataset given for region `k` is applied to the region
with ID `k - 1`; with regions 1 and 2, region 1 gets the data of region 2 and region 2 gets none. -/
theorem C71_multi_violated (v w : ℝ) :
    ∃ d, applyMultiRain 3 [⟨1, [0]⟩, ⟨2, [1]⟩] [(1, v), (2, w)] (fun _ => 0) = .ok d ∧
      d (3 * 0) = w ∧ d (3 * 1) = 0 := by
  refine ⟨_, rfl, ?_⟩
  simp [restoreRegionData, fill, getRegionData, List.range_succ]

/-- C71 (rainfall per region, partial): what does happen, in general: the dataset for region ID `k`
sets the water source of exactly the cells of the region with ID `k - 1`. -/
theorem C71_multi_partial (n : ℕ) (hn : 0 < n) (regions : List SrcRegion) (r : SrcRegion)
    (hr : r ∈ regions) (hid : ∀ s ∈ regions, s.id = r.id → s = r) (hnd : r.owned.Nodup) (v : ℝ)
    (data : ℕ → ℝ) :
    ∃ d, applyMultiRain n regions [(r.id + 1, v)] data = .ok d ∧
      (∀ o ∈ r.owned, d (n * o) = v) ∧
      ∀ o c, c < n → (c ≠ 0 ∨ o ∉ r.owned) → d (n * o + c) = data (n * o + c) := by
  obtain ⟨d, e1, e2, e3⟩ := C26_homogeneous n regions r hr hid hnd 0 hn v data
  refine ⟨d, ?_, e2, e3⟩
  unfold applyMultiRain
  have : r.id + 1 - 1 = r.id := by ring
  rw [this, e1]
  rfl

example : (⟨2, [1]⟩ : SrcRegion) ∈ [(⟨1, [0]⟩ : SrcRegion), ⟨2, [1]⟩] ∧ [1].Nodup := by simp

/-! ## C72: boundary datasets go to the boundary they are given for -/

/-- C72 (per boundary): if the setup succeeds, every Dirichlet boundary is driven by a dataset given
for its own ID, in order; it fails exactly if some Dirichlet boundary has no dataset. -/
theorem C72_match (regionIds : List ℤ) (bcs : List (ℕ × ℤ)) :
    (∀ l, matchDatasets regionIds bcs = some l →
      List.Forall₂ (fun b p => p.1 = b.1 ∧ regionIds[p.2]? = some b.2) bcs l) ∧
    (matchDatasets regionIds bcs = none ↔ ∃ b ∈ bcs, b.2 ∉ regionIds) := by
  induction bcs with
  | nil =>
    refine ⟨?_, by simp [matchDatasets]⟩
    intro l hl
    have : l = [] := by simpa [matchDatasets, eq_comm] using hl
    subst this
    exact List.Forall₂.nil
  | cons b rest ih =>
    obtain ⟨i, bid⟩ := b
    unfold matchDatasets
    cases hf : regionIds.findIdx? (fun r => decide (bid = r)) with
    | none =>
      rw [List.findIdx?_eq_none_iff] at hf
      have hnot : bid ∉ regionIds := by
        intro hm
        have := hf bid hm
        simp at this
      refine ⟨fun l hl => by simp at hl, ?_⟩
      simp only [true_iff]
      exact ⟨(i, bid), by simp, hnot⟩
    | some j =>
      rw [List.findIdx?_eq_some_iff_getElem] at hf
      obtain ⟨hj, hjv, _⟩ := hf
      have hjv' : bid = regionIds[j] := by simpa using hjv
      have hmem : bid ∈ regionIds := by rw [hjv']; exact List.getElem_mem hj
      constructor
      · intro l hl
        cases hm : matchDatasets regionIds rest with
        | none => rw [hm] at hl; simp at hl
        | some l' =>
          rw [hm] at hl
          have : l = (i, j) :: l' := by simpa [eq_comm] using hl
          subst this
          refine List.Forall₂.cons ⟨rfl, ?_⟩ (ih.1 l' hm)
          simp only
          rw [List.getElem?_eq_getElem hj, hjv']
      · have : (matchDatasets regionIds rest).map (fun l => (i, j) :: l) = none ↔
            matchDatasets regionIds rest = none := by
          cases matchDatasets regionIds rest <;> simp
        simp only
        rw [this, ih.2]
        constructor
        · rintro ⟨b, h1, h2⟩
          exact ⟨b, by simp [h1], h2⟩
        · rintro ⟨b, h1, h2⟩
          rcases List.mem_cons.mp h1 with rfl | h3
          · exact absurd hmem h2
          · exact ⟨b, h3, h2⟩

example : matchDatasets [7, 4, 9] [(0, 9), (2, 7)] = some [(0, 2), (2, 0)] := by decide
example : matchDatasets [7, 4, 9] [(0, 9), (2, 8)] = none := by decide

/-- C72 (one dataset): the boundary driven by a single dataset is the Dirichlet boundary of the
problem: the reported index is that of a Dirichlet boundary (the last), the flag says whether there
are several, and `-1` is reported exactly if there is none. -/
theorem C72_single (bs : List Bool) :
    (findDirichlet bs = (-1, false) ∧ true ∉ bs) ∨
    (∃ i : ℕ, (findDirichlet bs).1 = (i : ℤ) ∧ bs[i]? = some true ∧
      ((findDirichlet bs).2 = true ↔ ∃ j, j ≠ i ∧ bs[j]? = some true)) := by
  unfold findDirichlet
  induction bs using List.reverseRecOn with
  | nil => left; simp
  | append_singleton bs b ih =>
    rw [List.zipIdx_append, List.foldl_append]
    simp only [List.zipIdx_cons, List.zipIdx_nil, List.foldl_cons, List.foldl_nil]
    rcases ih with ⟨h1, h2⟩ | ⟨i, h1, h2, h3⟩
    · rw [h1]
      cases b with
      | false => left; simpa using h2
      | true =>
        right
        refine ⟨bs.length, by simp, by simp, ?_⟩
        simp only [if_true]
        constructor
        · intro hc; simp at hc
        · rintro ⟨j, hj1, hj2⟩
          exfalso
          rcases Nat.lt_or_ge j bs.length with hj | hj
          · rw [List.getElem?_append_left hj] at hj2
            exact h2 (List.mem_of_getElem? hj2)
          · rw [List.getElem?_append_right hj] at hj2
            have : j - bs.length ≠ 0 := by omega
            rw [List.getElem?_eq_none (by simp; omega)] at hj2
            cases hj2
    · have hi : i < bs.length := by
        by_contra hc
        rw [List.getElem?_eq_none (by omega)] at h2
        cases h2
      cases b with
      | false =>
        right
        refine ⟨i, by simpa using h1, by rw [List.getElem?_append_left hi]; exact h2, ?_⟩
        simp only [Bool.false_eq_true, if_false]
        rw [h3]
        constructor
        · rintro ⟨j, hj1, hj2⟩
          have hj : j < bs.length := by
            by_contra hc
            rw [List.getElem?_eq_none (by omega)] at hj2
            cases hj2
          exact ⟨j, hj1, by rw [List.getElem?_append_left hj]; exact hj2⟩
        · rintro ⟨j, hj1, hj2⟩
          refine ⟨j, hj1, ?_⟩
          rcases Nat.lt_or_ge j bs.length with hj | hj
          · rwa [List.getElem?_append_left hj] at hj2
          · rw [List.getElem?_append_right hj] at hj2
            rcases Nat.eq_zero_or_pos (j - bs.length) with h0 | h0
            · rw [h0] at hj2; simp at hj2
            · rw [List.getElem?_eq_none (by simp; omega)] at hj2
              cases hj2
      | true =>
        right
        refine ⟨bs.length, by simp, by simp, ?_⟩
        simp only [if_true]
        have hne : (bs.zipIdx.foldl (fun s b => if b.1 then ((b.2 : ℤ), if s.1 ≠ -1 then true else s.2)
            else s) ((-1 : ℤ), false)).1 ≠ -1 := by
          rw [h1]; omega
        rw [if_pos hne]
        simp only [true_iff]
        exact ⟨i, by omega, by rw [List.getElem?_append_left hi]; exact h2⟩

example : findDirichlet [false, true, false] = (1, false) ∧
    findDirichlet [true, true] = (1, true) := by decide

end RDy
