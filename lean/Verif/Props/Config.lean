import Verif.Model.Config
import Verif.Props.Time
import Mathlib.Tactic.Linarith
import Mathlib.Tactic.NormNum
import Mathlib.Tactic.FieldSimp

/-!
Properties C10 (time settings), C11 (coupling interval), C12 (defaults), C13 (printed names).
-/

namespace RDy

/-! ### Specification -/

/-- What the user wrote in the `time` section of the configuration file; `none` = omitted. -/
structure TimeGiven where
  stop : Option ℝ
  stopN : Option ℤ
  timeStep : Option ℝ
  coupling : Option ℝ
  adaptive : Option AdaptiveRaw

/-- The parsed configuration: `base` with the time section as given (omitted = zero). -/
def TimeGiven.parse (g : TimeGiven) (base : Cfg) : Cfg :=
  { base with stop := g.stop.getD 0, stopN := g.stopN.getD 0, timeStep := g.timeStep.getD 0,
              coupling := g.coupling.getD 0, adaptive := g.adaptive }

/-- Number of time settings given by the user. -/
def TimeGiven.count (g : TimeGiven) : ℕ :=
  g.stop.isSome.toNat + g.stopN.isSome.toNat + g.timeStep.isSome.toNat

/-- All numbers given are positive. -/
def TimeGiven.Positive (g : TimeGiven) : Prop :=
  (∀ x ∈ g.stop, 0 < x) ∧ (∀ x ∈ g.stopN, 0 < x) ∧ (∀ x ∈ g.timeStep, 0 < x)

theorem invalidReal_lt : invalidReal < -(2 ^ 32) := by
  have h : (2:ℝ) ^ 0 ≤ 2 ^ 971 := pow_le_pow_right₀ (by norm_num) (by norm_num)
  unfold invalidReal
  rw [pow_zero] at h
  generalize (2:ℝ) ^ 971 = x at h ⊢
  norm_num; linarith

theorem invalidReal_neg : invalidReal < 0 := by
  linarith [invalidReal_lt]

theorem applyAdaptive_some (c : Cfg) (a : AdaptiveRaw) (h : c.adaptive = some a)
    (hok : adaptiveOk c a) : applyAdaptive c = .ok { c with timeStep := a.initial } := by
  obtain ⟨_, _, _, _, _, _, _, _, _, _, _, ad, _, _⟩ := c
  simp only at h
  subst h
  simp [applyAdaptive, hok]

theorem fillThird_ne_error (c : Cfg) : fillThird c ≠ .error := by
  unfold fillThird
  split_ifs
  · simp
  · split <;> simp
  · simp

theorem invalidInt_neg : invalidInt < 0 := by
  unfold invalidInt; norm_num

theorem invalidInt_ne_real (n : ℤ) (h : -(2 ^ 31) ≤ n) : (n : ℝ) ≠ invalidReal := by
  intro he
  have h' : (-(2 ^ 31) : ℝ) ≤ n := by exact_mod_cast h
  rw [he] at h'
  linarith [invalidReal_lt]

/-! ### C10 -/

/-- C10, first half (partial): for every 32-bit `stop_n`, the code counts at least one time
setting, so the check "exactly two of three" never rejects anything. -/
theorem C10_check_never_fires_violated (c : Cfg) (h : -(2 ^ 31) ≤ c.stopN) :
    validateTime c ≠ .error ∨ ∃ a, c.adaptive = some a ∧ ¬ adaptiveOk c a := by
  have hval : ∀ c : Cfg, -(2 ^ 31) ≤ c.stopN →
      (if numTimeSettings c = 0 then Res.error else fillThird c) ≠ .error := by
    intro c h
    have hn : numTimeSettings c ≠ 0 := by
      unfold numTimeSettings
      rw [if_pos (invalidInt_ne_real _ h)]; omega
    rw [if_neg hn]
    exact fillThird_ne_error c
  unfold validateTime applyAdaptive
  rcases ha : c.adaptive with _ | a
  · exact Or.inl (hval c h)
  · by_cases hok : adaptiveOk c a
    · left
      simp only [if_pos hok]
      exact hval _ h
    · exact Or.inr ⟨a, rfl, hok⟩

/-- C10 (partial: positive settings, exactly two given, no adaptive stepping, and a step count that
fits in 32 bits): the configuration is accepted, the two given values are kept and the third one
is consistent with them: `stop = stop_n * time_step`, or – when `stop_n` is derived – the number of
whole steps that fit. -/
theorem C10_two_given_partial (base : Cfg) (g : TimeGiven) (hpos : g.Positive)
    (hcount : g.count = 2) (had : g.adaptive = none)
    (hN : ∀ n ∈ g.stopN, n ≤ 2 ^ 31 - 1)
    (hfit : ∀ s ∈ g.stop, ∀ d ∈ g.timeStep, s / d < 2 ^ 31) :
    ∃ c, validateTime (setMissing (g.parse base)) = .ok c ∧
      (∀ s ∈ g.stop, c.stop = s) ∧ (∀ n ∈ g.stopN, c.stopN = n) ∧
      (∀ d ∈ g.timeStep, c.timeStep = d) ∧ 0 < c.timeStep ∧ 0 < c.stop ∧
      (g.stopN.isSome → c.stop = c.stopN * c.timeStep) ∧
      c.stopN * c.timeStep ≤ c.stop ∧ c.stop < (c.stopN + 1) * c.timeStep := by
  obtain ⟨hs, hn, hd⟩ := hpos
  have hir := invalidReal_neg
  have hii := invalidInt_neg
  rcases g with ⟨s, n, d, cpl, ad⟩
  simp only at had
  subst had
  have hva : ∀ c : Cfg, c.adaptive = none → -(2 ^ 31) ≤ c.stopN → validateTime c = fillThird c := by
    intro c h1 h2
    have hn : numTimeSettings c ≠ 0 := by
      unfold numTimeSettings
      rw [if_pos (invalidInt_ne_real _ h2)]; omega
    simp [validateTime, applyAdaptive, h1, hn]
  cases s with
  | none =>
    cases n with
    | none => cases d <;> simp [TimeGiven.count] at hcount
    | some n =>
      cases d with
      | none => simp [TimeGiven.count] at hcount
      | some d =>
        have hn0 : 0 < n := hn n rfl
        have hd0 : 0 < d := hd d rfl
        have hn0' : (0:ℝ) < n := by exact_mod_cast hn0
        refine ⟨{ setMissing (TimeGiven.parse ⟨none, some n, some d, cpl, none⟩ base) with
          stop := (setMissing (TimeGiven.parse ⟨none, some n, some d, cpl, none⟩ base)).stopN *
            (setMissing (TimeGiven.parse ⟨none, some n, some d, cpl, none⟩ base)).timeStep }, ?_, ?_⟩
        · rw [hva _ rfl (by simp [setMissing, TimeGiven.parse, dfltI]; split_ifs <;> omega)]
          unfold fillThird
          rw [if_pos (by simp [setMissing, TimeGiven.parse, dfltR])]
        · have e1 : dfltI n invalidInt = n := by unfold dfltI; rw [if_neg hn0.ne']
          have e2 : dfltR d invalidReal = d := by unfold dfltR; rw [if_neg hd0.ne']
          simp [setMissing, TimeGiven.parse, e1, e2]
          exact ⟨hd0, mul_pos hn0' hd0, by nlinarith⟩
  | some s =>
    have hs0 : 0 < s := hs s rfl
    cases n with
    | none =>
      cases d with
      | none => simp [TimeGiven.count] at hcount
      | some d =>
        have hd0 : 0 < d := hd d rfl
        have e1 : dfltR s invalidReal = s := by unfold dfltR; rw [if_neg hs0.ne']
        have e2 : dfltR d invalidReal = d := by unfold dfltR; rw [if_neg hd0.ne']
        have hq : 0 ≤ s / d := (div_pos hs0 hd0).le
        have ht : truncInt (s / d) = some ⌊s / d⌋ := by
          unfold truncInt
          rw [if_pos hq, if_pos]
          have h1 : (⌊s / d⌋ : ℝ) < 2 ^ 31 := lt_of_le_of_lt (Int.floor_le _) (hfit s rfl d rfl)
          have h2 : ⌊s / d⌋ < 2 ^ 31 := by exact_mod_cast h1
          have h3 : 0 ≤ ⌊s / d⌋ := Int.floor_nonneg.2 hq
          constructor <;> omega
        refine ⟨{ setMissing (TimeGiven.parse ⟨some s, none, some d, cpl, none⟩ base) with
          stopN := ⌊s / d⌋ }, ?_, ?_⟩
        · rw [hva _ rfl (by simp [setMissing, TimeGiven.parse, dfltI]; decide)]
          unfold fillThird
          rw [if_neg (by simp [setMissing, TimeGiven.parse, e1]; linarith),
            if_pos (by simp [setMissing, TimeGiven.parse, dfltI])]
          simp [setMissing, TimeGiven.parse, e1, e2, ht]
        · simp [setMissing, TimeGiven.parse, e1, e2]
          refine ⟨hd0, hs0, ?_, ?_⟩
          · have := Int.floor_le (s / d)
            rwa [le_div_iff₀ hd0] at this
          · have := Int.lt_floor_add_one (s / d)
            rwa [div_lt_iff₀ hd0] at this
    | some n =>
      cases d with
      | some d => simp [TimeGiven.count] at hcount
      | none =>
        have hn0 : 0 < n := hn n rfl
        have hn0' : (0:ℝ) < n := by exact_mod_cast hn0
        have e1 : dfltR s invalidReal = s := by unfold dfltR; rw [if_neg hs0.ne']
        have e2 : dfltI n invalidInt = n := by unfold dfltI; rw [if_neg hn0.ne']
        refine ⟨{ setMissing (TimeGiven.parse ⟨some s, some n, none, cpl, none⟩ base) with
          timeStep := s / n }, ?_, ?_⟩
        · rw [hva _ rfl (by simp [setMissing, TimeGiven.parse, e2]; omega)]
          unfold fillThird
          rw [if_neg (by simp [setMissing, TimeGiven.parse, e1]; linarith),
            if_neg (by simp [setMissing, TimeGiven.parse, e2]; omega)]
          simp [setMissing, TimeGiven.parse, e1, e2]
        · simp [setMissing, TimeGiven.parse, e1, e2]
          have h1 : (n:ℝ) * (s / n) = s := by field_simp
          have h2 : ((n:ℝ) + 1) * (s / n) = s + s / n := by rw [add_mul, h1, one_mul]
          refine ⟨div_pos hs0 hn0', hs0, h1.symm, h1.le, ?_⟩
          rw [h2]; linarith [div_pos hs0 hn0']

example : ∃ g : TimeGiven, g.Positive ∧ g.count = 2 ∧ g.adaptive = none ∧
    (∀ n ∈ g.stopN, n ≤ 2 ^ 31 - 1) ∧ (∀ s ∈ g.stop, ∀ d ∈ g.timeStep, s / d < 2 ^ 31) :=
  ⟨⟨some 10, none, some 3, none, none⟩, by simp [TimeGiven.Positive], by simp [TimeGiven.count], rfl,
    by simp, by simp; norm_num⟩

theorem initialDt_eq (c : Cfg) (k : ℕ) (hk : secondsPer c.unit = some k) (h : c.stopN ≠ 0) :
    initialDt c = some (c.stop * k / c.stopN) := by
  unfold initialDt overrideDt
  simp only
  rw [if_pos (le_refl _), if_neg h, C01_toSeconds_factor _ _ _ hk]

theorem secondsPer_pos' {u : TimeUnit} {k : ℕ} (hk : secondsPer u = some k) : 0 < k := by
  cases u <;> simp [secondsPer] at hk <;> omega

theorem validateTime_unit (c c' : Cfg) (h : validateTime c = .ok c') : c'.unit = c.unit := by
  have hf : ∀ a b : Cfg, fillThird a = .ok b → b.unit = a.unit := by
    intro a b hab
    unfold fillThird at hab
    by_cases h1 : a.stop = invalidReal
    · rw [if_pos h1] at hab
      rw [← Res.ok.inj hab]
    · rw [if_neg h1] at hab
      by_cases h2 : a.stopN = invalidInt
      · rw [if_pos h2] at hab
        rcases ht : truncInt (a.stop / a.timeStep) with _ | n
        · rw [ht] at hab; cases hab
        · rw [ht] at hab
          rw [← Res.ok.inj hab]
      · rw [if_neg h2] at hab
        rw [← Res.ok.inj hab]
  unfold validateTime at h
  rcases ha : c.adaptive with _ | a
  · have e : applyAdaptive c = .ok c := by unfold applyAdaptive; rw [ha]
    rw [e] at h
    dsimp only at h
    by_cases h0 : numTimeSettings c = 0
    · rw [if_pos h0] at h; cases h
    · rw [if_neg h0] at h
      exact hf _ _ h
  · by_cases hok : adaptiveOk c a
    · rw [applyAdaptive_some c a ha hok] at h
      dsimp only at h
      by_cases h0 : numTimeSettings { c with timeStep := a.initial } = 0
      · rw [if_pos h0] at h; cases h
      · rw [if_neg h0] at h
        exact (hf { c with timeStep := a.initial } c' h).trans rfl
    · have e : applyAdaptive c = .error := by unfold applyAdaptive; rw [ha]; simp only; rw [if_neg hok]
      rw [e] at h
      cases h

/-- C10 (first step), the part that holds: for every accepted configuration with two positive settings of which
one is the number of steps, the step the integrator starts with is the time step in seconds: the configured
(or derived) number times the seconds in the configured unit, and `stop_n` such steps end at the final time in
seconds. If the final time and the time step are given instead, `stop_n` steps end at the final time, the step is
at least the given one, and it is the given one if and only if the final time is a multiple of it. What is missing:
`C10_internal_step_violated`. -/
theorem C10_internal_step_partial (base : Cfg) (g : TimeGiven) (hpos : g.Positive)
    (hcount : g.count = 2) (had : g.adaptive = none)
    (hN : ∀ n ∈ g.stopN, n ≤ 2 ^ 31 - 1)
    (hfit : ∀ s ∈ g.stop, ∀ d ∈ g.timeStep, d ≤ s ∧ s / d < 2 ^ 31) :
    ∃ c, validateTime (setMissing (g.parse base)) = .ok c ∧
      ∀ k, secondsPer c.unit = some k → ∃ dt, initialDt c = some dt ∧ 0 < dt ∧
        c.stopN * dt = c.stop * k ∧ c.timeStep * k ≤ dt ∧
        (∀ d ∈ g.timeStep, d * k ≤ dt ∧ (dt = d * k ↔ ∃ m : ℤ, c.stop = m * d)) ∧
        (g.stopN.isSome → dt = c.timeStep * k) := by
  obtain ⟨c, h, h1, h2, h3, h4, h5, h6, h7, h8⟩ := C10_two_given_partial base g hpos hcount had hN
    (fun s hs d hd => (hfit s hs d hd).2)
  have hn1 : 0 < c.stopN := by
    rcases hgn : g.stopN with _ | n
    · obtain ⟨s, hs⟩ : ∃ s, g.stop = some s := by
        rcases hg : g.stop with _ | s
        · rcases hg2 : g.timeStep with _ | d <;> simp [TimeGiven.count, hgn, hg, hg2] at hcount
        · exact ⟨s, rfl⟩
      obtain ⟨d, hd⟩ : ∃ d, g.timeStep = some d := by
        rcases hg : g.timeStep with _ | d
        · simp [TimeGiven.count, hgn, hs, hg] at hcount
        · exact ⟨d, rfl⟩
      have e1 := h1 s hs
      have e2 := h3 d hd
      have e3 := (hfit s hs d hd).1
      by_contra hh
      have h9 : (c.stopN : ℝ) + 1 ≤ 1 := by
        have : c.stopN ≤ 0 := by omega
        have : (c.stopN : ℝ) ≤ 0 := by exact_mod_cast this
        linarith only [this]
      have : c.stop < c.timeStep := lt_of_lt_of_le h8 (by nlinarith only [h9, h4])
      rw [e1, e2] at this
      linarith only [this, e3]
    · rw [h2 n hgn]
      exact hpos.2.1 n hgn
  have hn1' : (0 : ℝ) < c.stopN := by exact_mod_cast hn1
  refine ⟨c, h, fun k hk => ⟨c.stop * k / c.stopN, initialDt_eq c k hk (by omega), ?_, ?_, ?_, ?_, ?_⟩⟩
  all_goals have hk0 : (0 : ℝ) < k := by exact_mod_cast secondsPer_pos' hk
  · exact div_pos (mul_pos h5 hk0) hn1'
  · field_simp
  · rw [le_div_iff₀ hn1']
    nlinarith only [h7, hk0]
  · intro d hd
    rw [← h3 d hd]
    refine ⟨by rw [le_div_iff₀ hn1']; nlinarith only [h7, hk0], ?_⟩
    rw [div_eq_iff hn1'.ne']
    constructor
    · intro e
      refine ⟨c.stopN, ?_⟩
      have : (c.stop - c.stopN * c.timeStep) * k = 0 := by linarith only [e]
      rcases mul_eq_zero.1 this with h | h
      · linarith only [h]
      · exact absurd h hk0.ne'
    · rintro ⟨m, hm⟩
      rw [hm] at h7 h8
      have a1 : (c.stopN : ℝ) ≤ m := le_of_mul_le_mul_right h7 h4
      have a2 : (m : ℝ) < c.stopN + 1 := lt_of_mul_lt_mul_right h8 h4.le
      have b1 : c.stopN ≤ m := by exact_mod_cast a1
      have b2 : m < c.stopN + 1 := by exact_mod_cast a2
      have : m = c.stopN := by omega
      rw [hm, this]; ring
  · intro hn
    rw [div_eq_iff hn1'.ne', h6 hn]; ring

example (base : Cfg) : ∃ c, validateTime (setMissing (TimeGiven.parse ⟨none, some 4, some 2, none, none⟩ base)) =
    .ok c ∧ ∀ k, secondsPer c.unit = some k → initialDt c = some (2 * (k : ℝ)) := by
  obtain ⟨c, h, hk⟩ := C10_internal_step_partial base ⟨none, some 4, some 2, none, none⟩
    (by simp [TimeGiven.Positive]) (by simp [TimeGiven.count]) rfl (by simp) (by simp)
  obtain ⟨c', h', -, -, h3, -⟩ := C10_two_given_partial base ⟨none, some 4, some 2, none, none⟩
    (by simp [TimeGiven.Positive]) (by simp [TimeGiven.count]) rfl (by simp) (by simp)
  rw [h] at h'
  have : c = c' := Res.ok.inj h'
  subst this
  refine ⟨c, h, fun k e => ?_⟩
  obtain ⟨dt, h1, -, -, -, -, h2⟩ := hk k e
  rw [h1, h2 rfl, h3 2 rfl]

/-- C10 (violated): a time step that is given together with the final time is not the one used unless it divides
the final time: with 10 and 3 the integrator takes steps of 10/3. With a step larger than the final time there are
zero steps and the internal step is a division by zero. -/
theorem C10_internal_step_violated (base : Cfg) (hb : base.unit = .seconds) :
    (∃ c, validateTime (setMissing (TimeGiven.parse ⟨some 10, none, some 3, none, none⟩ base)) = .ok c ∧
      c.timeStep = 3 ∧ initialDt c = some (10 / 3)) ∧
    (∃ c, validateTime (setMissing (TimeGiven.parse ⟨some 10, none, some 11, none, none⟩ base)) = .ok c ∧
      c.timeStep = 11 ∧ initialDt c = none) := by
  have key : ∀ d : ℝ, 0 < d → (10 : ℝ) / d < 2 ^ 31 →
      ∃ c, validateTime (setMissing (TimeGiven.parse ⟨some 10, none, some d, none, none⟩ base)) = .ok c ∧
        c.stop = 10 ∧ c.timeStep = d ∧ c.unit = .seconds ∧ c.stopN * d ≤ 10 ∧ 10 < (c.stopN + 1) * d := by
    intro d hd hlt
    obtain ⟨c, h, h1, -, h3, -, -, -, h7, h8⟩ := C10_two_given_partial base ⟨some 10, none, some d, none, none⟩
      (by simp [TimeGiven.Positive, hd]) (by simp [TimeGiven.count]) rfl (by simp) (by simpa using hlt)
    have e1 := h1 10 rfl
    have e3 := h3 d rfl
    rw [e1, e3] at h7 h8
    refine ⟨c, h, e1, e3, ?_, h7, h8⟩
    have hu := validateTime_unit _ _ h
    rw [hu]
    simp [setMissing, TimeGiven.parse, hb]
  refine ⟨?_, ?_⟩
  · obtain ⟨c, h, h1, h2, h3, h4, h5⟩ := key 3 (by norm_num) (by norm_num)
    have a1 : (c.stopN : ℝ) < 4 := by linarith only [h4]
    have a2 : (2 : ℝ) < c.stopN := by linarith only [h5]
    have b1 : c.stopN < 4 := by exact_mod_cast a1
    have b2 : 2 < c.stopN := by exact_mod_cast a2
    have hn : c.stopN = 3 := by omega
    refine ⟨c, h, h2, ?_⟩
    rw [initialDt_eq c 1 (by rw [h3]; rfl) (by omega), hn, h1]
    norm_num
  · obtain ⟨c, h, h1, h2, h3, h4, h5⟩ := key 11 (by norm_num) (by norm_num)
    have a1 : (c.stopN : ℝ) < 1 := by linarith only [h4]
    have a2 : (-1 : ℝ) < c.stopN := by linarith only [h5]
    have b1 : c.stopN < 1 := by exact_mod_cast a1
    have b2 : -1 < c.stopN := by exact_mod_cast a2
    have hn : c.stopN = 0 := by omega
    refine ⟨c, h, h2, ?_⟩
    unfold initialDt overrideDt
    simp [hn]

example : ∃ base : Cfg, base.unit = .seconds :=
  ⟨⟨0, 0, .semiImplicit, .euler, 0, 0, 0, 0, 0, 0, .seconds, none, [], []⟩, rfl⟩

/-- C10 (adaptive stepping), for every accepted adaptive configuration with a final time: the first step is the
final time divided by the number of initial steps that fit, at least the configured initial step and less than
twice that. -/
theorem C10_adaptive_first_step_partial (base : Cfg) (s : ℝ) (a : AdaptiveRaw) (h1 : 0 < a.target ∧ a.target < 1)
    (h2 : 1 < a.maxInc) (h3 : 0 < a.initial) (hs : a.initial ≤ s) (hfit : s / a.initial < 2 ^ 31) :
    ∃ c, validateTime (setMissing (TimeGiven.parse ⟨some s, none, none, none, some a⟩ base)) = .ok c ∧
      c.stopN = ⌊s / a.initial⌋ ∧
      ∀ k, secondsPer c.unit = some k → ∃ dt, initialDt c = some dt ∧
        dt = s * k / (⌊s / a.initial⌋ : ℤ) ∧ a.initial * k ≤ dt ∧ dt < 2 * (a.initial * k) := by
  have hs0 : 0 < s := lt_of_lt_of_le h3 hs
  have hir := invalidReal_neg
  have hii := invalidInt_neg
  set c0 := setMissing (TimeGiven.parse ⟨some s, none, none, none, some a⟩ base) with hc0
  have a1 : c0.stop = s := by
    simp [hc0, setMissing, TimeGiven.parse, dfltR, hs0.ne']
  have a2 : c0.stopN = invalidInt := by simp [hc0, setMissing, TimeGiven.parse, dfltI]
  have a3 : c0.timeStep = invalidReal := by simp [hc0, setMissing, TimeGiven.parse, dfltR]
  have a4 : c0.adaptive = some a := rfl
  have hok : adaptiveOk c0 a := ⟨h1.1, h1.2, h2, h3, a2, a3⟩
  have hq : 1 ≤ s / a.initial := by rw [le_div_iff₀ h3]; linarith only [hs]
  have hn1 : 1 ≤ ⌊s / a.initial⌋ := Int.le_floor.2 (by exact_mod_cast hq)
  have ht : truncInt (s / a.initial) = some ⌊s / a.initial⌋ := by
    unfold truncInt
    have hq0 : 0 ≤ s / a.initial := by linarith only [hq]
    rw [if_pos hq0, if_pos]
    have h1 : (⌊s / a.initial⌋ : ℝ) < 2 ^ 31 := lt_of_le_of_lt (Int.floor_le _) hfit
    have h2 : ⌊s / a.initial⌋ < 2 ^ 31 := by exact_mod_cast h1
    constructor <;> omega
  have hnum : numTimeSettings { c0 with timeStep := a.initial } ≠ 0 := by
    unfold numTimeSettings
    rw [if_pos (show c0.stop ≠ invalidReal by rw [a1]; intro e; rw [e] at hs0; linarith only [hs0, hir])]
    omega
  refine ⟨{ { c0 with timeStep := a.initial } with stopN := ⌊s / a.initial⌋ }, ?_, rfl, fun k hk => ?_⟩
  · unfold validateTime
    rw [applyAdaptive_some c0 a a4 hok]
    dsimp only
    rw [if_neg hnum]
    unfold fillThird
    rw [if_neg (show ¬ c0.stop = invalidReal by rw [a1]; intro e; rw [e] at hs0; linarith only [hs0, hir]),
      if_pos a2]
    dsimp only
    rw [a1, ht]
  · have hk0 : (0 : ℝ) < k := by exact_mod_cast secondsPer_pos' hk
    have hn0 : (1 : ℝ) ≤ (⌊s / a.initial⌋ : ℤ) := by exact_mod_cast hn1
    have hn0' : (0 : ℝ) < (⌊s / a.initial⌋ : ℤ) := by linarith only [hn0]
    refine ⟨_, initialDt_eq _ k hk (by dsimp only; omega), ?_, ?_, ?_⟩
    · dsimp only; rw [a1]
    · dsimp only
      rw [a1, le_div_iff₀ hn0']
      have := Int.floor_le (s / a.initial)
      rw [le_div_iff₀ h3] at this
      nlinarith only [this, hk0]
    · dsimp only
      rw [a1, div_lt_iff₀ hn0']
      have := Int.lt_floor_add_one (s / a.initial)
      rw [div_lt_iff₀ h3] at this
      have : s < 2 * (⌊s / a.initial⌋ : ℤ) * a.initial := by nlinarith only [this, hn0, h3]
      nlinarith only [this, hk0]

/-- C10 (violated): with adaptive stepping the initial step is not the configured one: with a final time of 10 and
an initial step of 4 the first step is 5. -/
theorem C10_adaptive_first_step_violated (base : Cfg) (hb : base.unit = .seconds) :
    ∃ c, validateTime (setMissing (TimeGiven.parse ⟨some 10, none, none, none, some ⟨1/2, 2, 4⟩⟩ base)) = .ok c ∧
      initialDt c = some 5 := by
  obtain ⟨c, h, h1, h2⟩ := C10_adaptive_first_step_partial base 10 ⟨1/2, 2, 4⟩ (by norm_num) (by norm_num)
    (by norm_num) (by norm_num) (by norm_num)
  refine ⟨c, h, ?_⟩
  have hu : c.unit = .seconds := by
    rw [validateTime_unit _ _ h]
    simp [setMissing, TimeGiven.parse, hb]
  obtain ⟨dt, e1, e2, -⟩ := h2 1 (by rw [hu]; rfl)
  rw [e1, e2]
  have hf : ⌊(10 : ℝ) / (4 : ℝ)⌋ = 2 := by rw [Int.floor_eq_iff]; norm_num
  simp only [hf]
  norm_num

/-- C10: the option `-dt` is the internal step in seconds, whatever the unit. -/
theorem C10_dt_option (dt0 d : ℝ) (c : Cfg) : overrideDt dt0 (some d) c = some d := rfl

/-- C10 refuted: with all three settings given the configuration is accepted, and a given time
step that disagrees with the others is silently replaced. -/
theorem C10_three_given_violated (base : Cfg) (s d : ℝ) (n : ℤ) (hs : 0 < s) (hn : 0 < n)
    (hd : d ≠ s / n) :
    ∃ g : TimeGiven, g.count = 3 ∧ g.timeStep = some d ∧
      ∃ c, validateTime (setMissing (g.parse base)) = .ok c ∧ c.timeStep ≠ d := by
  refine ⟨⟨some s, some n, some d, none, none⟩, rfl, rfl, ?_⟩
  have e1 : dfltR s invalidReal = s := by unfold dfltR; rw [if_neg hs.ne']
  have e2 : dfltI n invalidInt = n := by unfold dfltI; rw [if_neg hn.ne']
  have hir := invalidReal_neg
  have hii := invalidInt_neg
  refine ⟨{ setMissing (TimeGiven.parse ⟨some s, some n, some d, none, none⟩ base) with
    timeStep := s / n }, ?_, fun h => hd h.symm⟩
  have hnum : numTimeSettings (setMissing (TimeGiven.parse ⟨some s, some n, some d, none, none⟩ base))
      ≠ 0 := by
    unfold numTimeSettings
    have : (setMissing (TimeGiven.parse ⟨some s, some n, some d, none, none⟩ base)).stop
        ≠ invalidReal := by
      simp [setMissing, TimeGiven.parse, e1]; linarith
    rw [if_pos this]; omega
  unfold validateTime applyAdaptive
  rw [show (setMissing (TimeGiven.parse ⟨some s, some n, some d, none, none⟩ base)).adaptive = none
    from rfl]
  simp only [if_neg hnum]
  unfold fillThird
  rw [if_neg (by simp [setMissing, TimeGiven.parse, e1]; linarith),
    if_neg (by simp [setMissing, TimeGiven.parse, e2]; omega)]
  simp [setMissing, TimeGiven.parse, e1, e2]

example : (5:ℝ) ≠ 10 / (4:ℤ) := by norm_num

/-- C10 refuted: with only the final time given the configuration is accepted with zero steps, and
the time step then used divides by zero. -/
theorem C10_one_given_violated (base : Cfg) :
    ∃ g : TimeGiven, g.count = 1 ∧ g.stop = some 10 ∧
      ∃ c, validateTime (setMissing (g.parse base)) = .ok c ∧ c.stopN = 0 ∧
        initialDt c = none := by
  refine ⟨⟨some 10, none, none, none, none⟩, rfl, rfl, ?_⟩
  have e1 : dfltR 10 invalidReal = 10 := by unfold dfltR; rw [if_neg (by norm_num)]
  have e2 : dfltR 0 invalidReal = invalidReal := by unfold dfltR; rw [if_pos rfl]
  have e3 : dfltI 0 invalidInt = invalidInt := by unfold dfltI; rw [if_pos rfl]
  have hir := invalidReal_neg
  have hneg : ¬ (0:ℝ) ≤ 10 / invalidReal := by
    rw [not_le]; exact div_neg_of_pos_of_neg (by norm_num) hir
  have hceil : ⌈(10:ℝ) / invalidReal⌉ = 0 := by
    rw [Int.ceil_eq_iff]
    constructor
    · have h10 : (-1:ℝ) < 10 / invalidReal := by
        rw [lt_div_iff_of_neg hir]; linarith [invalidReal_lt]
      push_cast; linarith
    · push_cast; exact (not_le.1 hneg).le
  have ht : truncInt (10 / invalidReal) = some 0 := by
    unfold truncInt
    rw [if_neg hneg, hceil]; simp
  refine ⟨{ setMissing (TimeGiven.parse ⟨some 10, none, none, none, none⟩ base) with stopN := 0 },
    ?_, rfl, ?_⟩
  · have hnum : numTimeSettings (setMissing (TimeGiven.parse ⟨some 10, none, none, none, none⟩ base))
        ≠ 0 := by
      unfold numTimeSettings
      have : (setMissing (TimeGiven.parse ⟨some 10, none, none, none, none⟩ base)).stop
          ≠ invalidReal := by
        simp [setMissing, TimeGiven.parse, e1]; linarith
      rw [if_pos this]; omega
    unfold validateTime applyAdaptive
    rw [show (setMissing (TimeGiven.parse ⟨some 10, none, none, none, none⟩ base)).adaptive = none
      from rfl]
    simp only [if_neg hnum]
    unfold fillThird
    rw [if_neg (by simp [setMissing, TimeGiven.parse, e1]; linarith),
      if_pos (by simp [setMissing, TimeGiven.parse, e3])]
    simp [setMissing, TimeGiven.parse, e1, e2, ht]
  · unfold initialDt overrideDt
    simp

/-- C10 refuted: adaptive stepping without a final time is accepted, with a negative final time. -/
theorem C10_adaptive_without_stop_violated (base : Cfg) :
    ∃ g : TimeGiven, g.count = 0 ∧
      ∃ c, validateTime (setMissing (g.parse base)) = .ok c ∧ c.stop < 0 := by
  refine ⟨⟨none, none, none, none, some ⟨1/2, 2, 1⟩⟩, rfl, ?_⟩
  have e2 : dfltR 0 invalidReal = invalidReal := by unfold dfltR; rw [if_pos rfl]
  have e3 : dfltI 0 invalidInt = invalidInt := by unfold dfltI; rw [if_pos rfl]
  set c0 := setMissing (TimeGiven.parse ⟨none, none, none, none, some ⟨1/2, 2, 1⟩⟩ base) with hc0
  have h1 : c0.stop = invalidReal := by simp [hc0, setMissing, TimeGiven.parse, e2]
  have h2 : c0.stopN = invalidInt := by simp [hc0, setMissing, TimeGiven.parse, e3]
  have h3 : c0.timeStep = invalidReal := by simp [hc0, setMissing, TimeGiven.parse, e2]
  have h4 : c0.adaptive = some ⟨1/2, 2, 1⟩ := rfl
  have hok : adaptiveOk c0 ⟨1/2, 2, 1⟩ := by
    refine ⟨?_, ?_, ?_, ?_, h2, h3⟩ <;> norm_num
  have hnum : numTimeSettings { c0 with timeStep := 1 } ≠ 0 := by
    unfold numTimeSettings
    rw [if_pos (invalidInt_ne_real _ (by simp only [h2]; decide))]; omega
  refine ⟨{ c0 with timeStep := 1, stop := (c0.stopN : ℝ) * 1 }, ?_, ?_⟩
  · unfold validateTime
    rw [applyAdaptive_some _ _ h4 hok]
    simp only [if_neg hnum]
    unfold fillThird
    rw [if_pos h1]
  · simp only [h2]
    unfold invalidInt; norm_num

/-! ### C11 -/

/-- C11: an explicitly given coupling interval that is accepted lies in `(0, stop]`. -/
theorem C11_specified (c c' : Cfg) (h : validateCoupling c = .ok (c', true)) :
    0 < c'.coupling ∧ c'.coupling ≤ c'.stop ∧ c' = c := by
  unfold validateCoupling at h
  split_ifs at h with h1 h2
  · simp at h
  · simp at h; subst h; exact ⟨h2.1, h2.2, rfl⟩

example : ∃ c, validateCoupling ⟨0, 0, .semiImplicit, .euler, 0, 0, 10, 5, 2, 4, .hours, none, [], []⟩
    = .ok (c, true) := by
  have hir := invalidReal_neg
  refine ⟨⟨0, 0, .semiImplicit, .euler, 0, 0, 10, 5, 2, 4, .hours, none, [], []⟩, ?_⟩
  unfold validateCoupling
  rw [if_neg (by simp only; linarith), if_pos ⟨by norm_num, by norm_num⟩]

/-- C11 (partial: without an output time interval): if the final time is positive, the coupling
interval of every accepted configuration lies in `(0, stop]`. -/
theorem C11_accepted_partial (c : Cfg) (o : OutRaw) (c' : Cfg) (o' : OutRaw)
    (h : validate c o = .ok (c', o')) (hstop : 0 < c'.stop)
    (hout : o.timeInterval = 0 ∨ ¬ o.enabled) :
    0 < c'.coupling ∧ c'.coupling ≤ c'.stop := by
  unfold validate at h
  cases h1 : validateTime c with
  | error => rw [h1] at h; simp at h
  | ub => rw [h1] at h; simp at h
  | ok c1 =>
    rw [h1] at h
    simp only at h
    cases h2 : validateCoupling c1 with
    | error => rw [h2] at h; simp at h
    | ub => rw [h2] at h; simp at h
    | ok p =>
      obtain ⟨c2, sp⟩ := p
      rw [h2] at h
      simp only at h
      have hc : c' = c2 := by
        unfold validateOutput at h
        split_ifs at h with g1 g2 g3 g4
        · simp at h; exact h.1.symm
        · rcases hout with hout | hout
          · exact absurd hout g3
          · exact absurd g1 hout
        · simp at h; exact h.1.symm
      subst hc
      cases sp with
      | true =>
        obtain ⟨g1, g2, -⟩ := C11_specified _ _ h2
        exact ⟨g1, g2⟩
      | false =>
        unfold validateCoupling at h2
        split_ifs at h2 with g1 g2
        · simp at h2
          subst h2
          exact ⟨hstop, le_refl _⟩
        · simp at h2

/-- C11: with an output time interval, every accepted configuration has a positive coupling
interval of which the output interval (both in seconds) is a positive whole multiple. -/
theorem C11_output_multiple (c : Cfg) (o : OutRaw) (c' : Cfg) (o' : OutRaw)
    (h : validate c o = .ok (c', o')) (hen : o.enabled) (hti : o.timeInterval ≠ 0)
    (hu : Supported c'.unit) :
    0 < c'.coupling ∧ ∃ n : ℕ, 0 < n ∧
      toSeconds o.timeInterval o.timeUnit = n * toSeconds c'.coupling c'.unit := by
  unfold validate at h
  cases h1 : validateTime c with
  | error => rw [h1] at h; simp at h
  | ub => rw [h1] at h; simp at h
  | ok c1 =>
    rw [h1] at h
    simp only at h
    cases h2 : validateCoupling c1 with
    | error => rw [h2] at h; simp at h
    | ub => rw [h2] at h; simp at h
    | ok p =>
      obtain ⟨c2, sp⟩ := p
      rw [h2] at h
      simp only at h
      unfold validateOutput at h
      rw [if_pos hen] at h
      split_ifs at h with g2 g4
      simp at h
      obtain ⟨rfl, -⟩ := h
      have hpos : 0 < (adoptInterval c2 sp o).coupling := by
        unfold adoptInterval
        cases sp with
        | true => simpa using (C11_specified _ _ h2).1
        | false =>
          have : 0 < o.timeInterval := lt_of_le_of_ne g2.2.2.2.1 (Ne.symm hti)
          simpa using this
      refine ⟨hpos, ?_⟩
      obtain ⟨f, hf0, e⟩ := secondsPer_pos hu
      have ht1 : 0 < toSeconds (adoptInterval c2 sp o).coupling (adoptInterval c2 sp o).unit := by
        rw [C01_toSeconds_factor _ _ _ e]
        exact mul_pos hpos (by exact_mod_cast hf0)
      obtain ⟨-, g5, g6⟩ := g4
      have hge : (1:ℝ) ≤ toSeconds o.timeInterval o.timeUnit /
          toSeconds (adoptInterval c2 sp o).coupling (adoptInterval c2 sp o).unit := by
        rw [le_div_iff₀ ht1]; linarith
      have hfl : 1 ≤ ⌊toSeconds (o.timeInterval:ℝ) o.timeUnit /
          toSeconds (adoptInterval c2 sp o).coupling (adoptInterval c2 sp o).unit⌋ := by
        rw [Int.le_floor]; exact_mod_cast hge
      obtain ⟨n, hn⟩ := Int.eq_ofNat_of_zero_le (by omega : 0 ≤ ⌊toSeconds (o.timeInterval:ℝ) o.timeUnit /
          toSeconds (adoptInterval c2 sp o).coupling (adoptInterval c2 sp o).unit⌋)
      refine ⟨n, by omega, ?_⟩
      rw [hn] at g6
      push_cast at g6
      linarith

/-- Output every two hours in a run of ten hours with ten steps per hour and a coupling interval of half an
hour is accepted. -/
example : ∃ c' o', validate ⟨0, 0, .semiImplicit, .euler, 0, 0, 10, 100, 0.1, 0.5, .hours, none, [], []⟩
      ⟨true, true, 0, 2, .hours, 0⟩ = .ok (c', o') ∧ 0 < c'.stop ∧ Supported c'.unit ∧
      ∃ n : ℕ, 0 < n ∧ toSeconds 2 .hours = n * toSeconds c'.coupling c'.unit := by
  have hir := invalidReal_neg
  have h1 : validateTime ⟨0, 0, .semiImplicit, .euler, 0, 0, 10, 100, 0.1, 0.5, .hours, none, [], []⟩ =
      .ok ⟨0, 0, .semiImplicit, .euler, 0, 0, 10, 100, 0.1, 0.5, .hours, none, [], []⟩ := by
    unfold validateTime applyAdaptive
    simp only
    rw [if_neg]
    · unfold fillThird
      rw [if_neg (by simp only; linarith), if_neg (by simp only [invalidInt]; norm_num)]
      norm_num
    · unfold numTimeSettings
      rw [if_pos (by simp only [ne_eq]; linarith)]
      omega
  have h2 : validateCoupling ⟨0, 0, .semiImplicit, .euler, 0, 0, 10, 100, 0.1, 0.5, .hours, none, [], []⟩ =
      .ok (⟨0, 0, .semiImplicit, .euler, 0, 0, 10, 100, 0.1, 0.5, .hours, none, [], []⟩, true) := by
    unfold validateCoupling
    rw [if_neg (by simp only; linarith), if_pos ⟨by norm_num, by norm_num⟩]
  have h : validate ⟨0, 0, .semiImplicit, .euler, 0, 0, 10, 100, 0.1, 0.5, .hours, none, [], []⟩
      ⟨true, true, 0, 2, .hours, 0⟩ =
      .ok (⟨0, 0, .semiImplicit, .euler, 0, 0, 10, 100, 0.1, 0.5, .hours, none, [], []⟩,
        OutRaw.setBatch ⟨true, true, 0, 2, .hours, 0⟩) := by
    unfold validate
    simp only [h1, h2]
    unfold validateOutput
    rw [if_pos (show OutRaw.enabled _ from Or.inl rfl), if_pos (by simp [OutRaw.checks]), if_neg (by norm_num),
      if_pos]
    · simp [adoptInterval]
    · refine ⟨by simp, ?_, ?_⟩
      · simp only [adoptInterval, if_true, toSeconds, minsInHr, secsInMin]
        norm_num
      · simp only [adoptInterval, if_true, toSeconds, minsInHr, secsInMin]
        norm_num
  exact ⟨_, _, h, by norm_num, by simp [Supported],
    (C11_output_multiple _ _ _ _ h (Or.inl rfl) (by norm_num) (by simp [Supported])).2⟩

/-- A configuration with both `stop` and `stop_n` given, used as a witness below. -/
noncomputable def cfgWitness (stop : ℝ) : Cfg :=
  ⟨1e-7, 0, .semiImplicit, .euler, 0, 0, stop, 10, invalidReal, invalidReal, .seconds, none, [], []⟩

theorem cfgWitness_time (stop : ℝ) (h : 0 < stop) :
    validateTime (cfgWitness stop) = .ok { cfgWitness stop with timeStep := stop / 10 } := by
  have hir := invalidReal_neg
  have hii := invalidInt_neg
  have hs : stop ≠ invalidReal := by linarith
  unfold validateTime applyAdaptive
  have hnum : numTimeSettings (cfgWitness stop) ≠ 0 := by
    unfold numTimeSettings
    rw [if_pos (show (cfgWitness stop).stop ≠ invalidReal from hs)]; omega
  simp only [show (cfgWitness stop).adaptive = none from rfl, if_neg hnum]
  unfold fillThird
  rw [if_neg (show ¬ (cfgWitness stop).stop = invalidReal from hs),
    if_neg (show ¬ (cfgWitness stop).stopN = invalidInt by simp only [cfgWitness]; omega)]
  simp [cfgWitness]

/-- The hypotheses of `C11_output_multiple` are met (output every 20 s). -/
theorem C11_output_multiple_example : validate (cfgWitness 100) ⟨true, false, 0, 20, .seconds, 0⟩
    = .ok ({ cfgWitness 100 with timeStep := 100 / 10, coupling := ((20:ℤ):ℝ) },
        ⟨true, false, 0, 20, .seconds, 1⟩) := by
  unfold validate
  rw [cfgWitness_time 100 (by norm_num)]
  simp only
  have h1 : validateCoupling { cfgWitness 100 with timeStep := 100 / 10 }
      = .ok ({ cfgWitness 100 with timeStep := 100 / 10, coupling := 100 }, false) := by
    unfold validateCoupling
    rw [if_pos (by rfl)]; rfl
  rw [h1]
  simp only
  unfold validateOutput
  have h2 : OutRaw.enabled ⟨true, false, 0, 20, .seconds, 0⟩ := Or.inl rfl
  have h3 : OutRaw.checks ⟨true, false, 0, 20, .seconds, 0⟩ := by
    refine ⟨rfl, by simp, by simp, by simp, Or.inl rfl⟩
  have h4 : ¬ (⟨true, false, 0, 20, .seconds, 0⟩ : OutRaw).timeInterval = 0 := by simp
  rw [if_pos h2, if_pos h3, if_neg h4, if_pos]
  · simp [adoptInterval, OutRaw.setBatch]
  · refine ⟨by simp, ?_, ?_⟩
    · simp [adoptInterval, toSeconds, cfgWitness]
    · simp [adoptInterval, toSeconds, cfgWitness]

/-- C11 refuted: a coupling interval that is not specified is taken from the output time interval
without comparing it with the final time, so it can exceed it. -/
theorem C11_exceeds_stop_violated : ∃ c o c' o', validate c o = .ok (c', o') ∧
    0 < c'.stop ∧ c'.stop < c'.coupling := by
  refine ⟨cfgWitness 10, ⟨true, false, 0, 20, .seconds, 0⟩,
    { cfgWitness 10 with timeStep := 10 / 10, coupling := ((20:ℤ):ℝ) },
    ⟨true, false, 0, 20, .seconds, 1⟩, ?_, by norm_num [cfgWitness], by norm_num [cfgWitness]⟩
  unfold validate
  rw [cfgWitness_time 10 (by norm_num)]
  simp only
  have h1 : validateCoupling { cfgWitness 10 with timeStep := 10 / 10 }
      = .ok ({ cfgWitness 10 with timeStep := 10 / 10, coupling := 10 }, false) := by
    unfold validateCoupling
    rw [if_pos (by rfl)]; rfl
  rw [h1]
  simp only
  unfold validateOutput
  have h2 : OutRaw.enabled ⟨true, false, 0, 20, .seconds, 0⟩ := Or.inl rfl
  have h3 : OutRaw.checks ⟨true, false, 0, 20, .seconds, 0⟩ := by
    refine ⟨rfl, by simp, by simp, by simp, Or.inl rfl⟩
  have h4 : ¬ (⟨true, false, 0, 20, .seconds, 0⟩ : OutRaw).timeInterval = 0 := by simp
  rw [if_pos h2, if_pos h3, if_neg h4, if_pos]
  · simp [adoptInterval, OutRaw.setBatch]
  · refine ⟨by simp, ?_, ?_⟩
    · simp [adoptInterval, toSeconds, cfgWitness]
    · simp [adoptInterval, toSeconds, cfgWitness]

/-! ### C12 -/

theorem dfltR_idem (v d : ℝ) : dfltR (dfltR v d) d = dfltR v d := by
  unfold dfltR; split_ifs with h1 h2 <;> simp_all

theorem dfltI_idem (v d : ℤ) : dfltI (dfltI v d) d = dfltI v d := by
  unfold dfltI; split_ifs with h1 h2 <;> simp_all

theorem dfltMethod_idem (t : Temporal) (m : SourceMethod) :
    dfltMethod t (dfltMethod t m) = dfltMethod t m := by
  cases t <;> cases m <;> rfl

/-- C12: filling in defaults twice is the same as filling once. -/
theorem C12_idempotent (c : Cfg) : setMissing (setMissing c) = setMissing c := by
  unfold setMissing
  simp only [dfltR_idem, dfltI_idem, dfltMethod_idem, Cfg.mk.injEq, true_and, and_true]
  refine ⟨?_, ?_, ?_⟩
  · split_ifs with h
    · exact dfltR_idem _ _
    · rfl
  · by_cases h : c.outputDir = []
    · simp [h, defaultDir]
    · simp [h]
  · by_cases h : c.fields = []
    · simp [h, defaultFields]
    · simp [h]

/-- C12 (partial: given values different from zero / from the zero enumerator): every given value
survives default filling. -/
theorem C12_given_survives_partial (c : Cfg) :
    (c.tinyH ≠ 0 → (setMissing c).tinyH = c.tinyH) ∧
    (setMissing c).hAnuga = c.hAnuga ∧
    (c.method ≠ .semiImplicit ∨ c.temporal ≠ .arkImex → (setMissing c).method = c.method) ∧
    (c.xqThreshold ≠ 0 → (setMissing c).xqThreshold = c.xqThreshold) ∧
    (setMissing c).numClasses = c.numClasses ∧
    (c.stop ≠ 0 → (setMissing c).stop = c.stop) ∧
    (c.stopN ≠ 0 → (setMissing c).stopN = c.stopN) ∧
    (c.timeStep ≠ 0 → (setMissing c).timeStep = c.timeStep) ∧
    (c.coupling ≠ 0 → (setMissing c).coupling = c.coupling) ∧
    (c.outputDir ≠ [] → (setMissing c).outputDir = c.outputDir) ∧
    (c.fields ≠ [] → (setMissing c).fields = c.fields) ∧
    (setMissing c).temporal = c.temporal ∧ (setMissing c).unit = c.unit ∧
    (setMissing c).adaptive = c.adaptive := by
  have hR : ∀ v d : ℝ, v ≠ 0 → dfltR v d = v := fun v d h => if_neg h
  have hI : ∀ v d : ℤ, v ≠ 0 → dfltI v d = v := fun v d h => if_neg h
  refine ⟨hR _ _, ?_, ?_, ?_, ?_, hR _ _, hI _ _, hR _ _, hR _ _, fun h => if_neg h,
    fun h => if_neg h, rfl, rfl, rfl⟩
  · simp only [setMissing, dfltR]; split_ifs with h <;> simp [h]
  · intro h
    simp only [setMissing, dfltMethod]
    rcases h with h | h
    · split_ifs <;> rfl
    · rw [if_neg h]
  · intro h
    simp only [setMissing]
    split_ifs
    · exact hR _ _ h
    · rfl
  · simp only [setMissing, dfltI]; split_ifs with h <;> simp [h]

/-- C12: missing values receive the documented defaults. -/
theorem C12_defaults (c : Cfg) :
    (c.tinyH = 0 → (setMissing c).tinyH = 1e-7) ∧
    (c.temporal = .arkImex → c.method = .semiImplicit → (setMissing c).method = .arkImex) ∧
    (c.method = .xq2018 → c.xqThreshold = 0 → (setMissing c).xqThreshold = 1e-10) ∧
    (c.outputDir = [] → (setMissing c).outputDir = defaultDir) ∧
    (c.fields = [] → (setMissing c).fields = defaultFields) := by
  refine ⟨fun h => if_pos h, ?_, ?_, fun h => if_pos h, fun h => if_pos h⟩
  · intro h1 h2; simp [setMissing, dfltMethod, h1, h2]
  · intro h1 h2
    have : dfltMethod c.temporal c.method = .xq2018 := by
      rw [h1]; cases c.temporal <;> rfl
    simp [setMissing, this, h2, dfltR]

/-- C12 refuted: an explicit zero (here the minimum water depth) or an explicit "semi_implicit"
source method (with ARK-IMEX stepping) given by the user is overwritten. -/
theorem C12_explicit_zero_violated :
    (∃ c : Cfg, c.tinyH = 0 ∧ (setMissing c).tinyH ≠ 0) ∧
    (∃ c : Cfg, c.method = .semiImplicit ∧ (setMissing c).method ≠ .semiImplicit) := by
  refine ⟨⟨{ cfgWitness 1 with tinyH := 0 }, rfl, ?_⟩,
    ⟨{ cfgWitness 1 with temporal := .arkImex }, rfl, ?_⟩⟩
  · simp [setMissing, dfltR]; norm_num
  · simp [setMissing, dfltMethod, cfgWitness]

/-! ### C13 -/

/-- Specification: the name of a time unit. -/
def unitName : TimeUnit → String
  | .unset => "unset" | .seconds => "seconds" | .minutes => "minutes" | .hours => "hours"
  | .days => "days" | .months => "months" | .years => "years"

/-- Specification: the abbreviation of a time unit. -/
def unitAbbrev : TimeUnit → String
  | .unset => "" | .seconds => "sec" | .minutes => "min" | .hours => "hr"
  | .days => "day" | .months => "mon" | .years => "yr"

/-- C13: log messages (`TimeUnitAsString`) name every supported unit correctly. -/
theorem C13_unit_abbreviation (u : TimeUnit) (h : Supported u) :
    timeUnitAsString u = some (unitAbbrev u) := by
  cases u <;> first | rfl | simp [Supported] at h

example : Supported .months := by simp [Supported]

/-- C13: the spatial method is printed correctly. -/
theorem C13_spatial (m : Spatial) : spatialString m
    = some (match m with | .fv => "finite volume (FV)" | .fe => "finite element (FE)") := by
  cases m <;> rfl

/-- C13 refuted: the configuration report never names the time unit in force, for any unit a
configuration can have; for years it reads outside the table. -/
theorem C13_time_unit_violated (u : TimeUnit) (h : Supported u) :
    timeUnitString u ≠ some (unitName u) ∧ timeUnitString .years = none := by
  cases u
  · simp [Supported] at h
  all_goals exact ⟨by decide, rfl⟩

/-- C13 refuted: the upwind Roe solver is reported as "hllc" and ARK-IMEX as backward Euler. -/
theorem C13_solver_violated : riemannString .upwindRoe = some "hllc" ∧ riemannString .hllc = none ∧
    temporalString .arkImex = some "backward euler" ∧ temporalString .beuler = none :=
  ⟨rfl, rfl, rfl, rfl⟩

/-- C13 (partial): the remaining methods are reported correctly. -/
theorem C13_methods_partial : riemannString .roe = some "roe" ∧
    temporalString .euler = some "forward euler" ∧
    temporalString .rk4 = some "4th-order Runge-Kutta" := ⟨rfl, rfl, rfl⟩

end RDy
