import Verif.Lemmas.Advance

/-!
Properties C03 (coupling loop) and C04 (adaptive time step).
-/

namespace RDy

/-- Fixed-step simulation at its start: clock at zero, no adaptive stepping. -/
def Sim.Fixed (s : Sim) : Prop := s.adaptive = none

/-- C03: one `RDyAdvance` call advances the time by exactly one coupling interval, taking
`⌈interval/dt⌉` steps, provided the time step and interval are positive and the step limit is not
reached. -/
theorem C03_advance_exact (s : Sim) (cn : ℝ)
    (hdt : 0 < s.nextDt) (hi : 0 < toSeconds s.coupling s.unit)
    (hb : ⌈toSeconds s.coupling s.unit / s.nextDt⌉₊
            ≤ s.budget s.nextDt (toSeconds s.coupling s.unit)) :
    (s.advance cn).time = s.time + toSeconds s.coupling s.unit ∧
    (s.advance cn).step = s.step + ⌈toSeconds s.coupling s.unit / s.nextDt⌉₊ := by
  have e : s.time + toSeconds s.coupling s.unit - s.time = toSeconds s.coupling s.unit := by ring
  have h := tsLoop_reaches s.nextDt (s.time + toSeconds s.coupling s.unit) hdt
    (s.budget s.nextDt (toSeconds s.coupling s.unit)) s.time (by linarith) (by rw [e]; exact hb)
  simp only [Sim.advance, h, e, and_self]

example : let s : Sim := ⟨0, 0, 3, some 4, .seconds, 10, 10, none, none⟩
    0 < s.nextDt ∧ 0 < toSeconds s.coupling s.unit ∧
    ⌈toSeconds s.coupling s.unit / s.nextDt⌉₊
      ≤ s.budget s.nextDt (toSeconds s.coupling s.unit) := by
  refine ⟨by norm_num [Sim.nextDt], by norm_num [toSeconds], ?_⟩
  simp only [Sim.nextDt, toSeconds, Sim.budget]
  rw [Nat.ceil_le]; norm_num

/-- C03: configuration fields are never changed by advancing. -/
theorem C03_run_frame (s : Sim) (cns : List ℝ) :
    (s.run cns).unit = s.unit ∧ (s.run cns).stop = s.stop ∧ (s.run cns).coupling = s.coupling ∧
    (s.run cns).adaptive = s.adaptive ∧ (s.run cns).maxSteps = s.maxSteps := by
  induction cns generalizing s with
  | nil => simp [Sim.run]
  | cons c cs ih =>
    have := ih (s.advance c)
    simpa [Sim.run, Sim.advance] using this

/-- C03 (fixed time step): after `n` calls the time is `t0 + n·interval` and the step count is
`n·⌈interval/dt⌉`, as long as the step limit `stop_n` allows that many steps. -/
theorem C03_run_fixed (s : Sim) (m : ℕ) (cns : List ℝ) (hf : s.Fixed) (hm : s.maxSteps = some m)
    (hdt : 0 < s.dt) (hi : 0 < toSeconds s.coupling s.unit)
    (hb : s.step + cns.length * ⌈toSeconds s.coupling s.unit / s.dt⌉₊ ≤ m) :
    (s.run cns).time = s.time + cns.length * toSeconds s.coupling s.unit ∧
    (s.run cns).step = s.step + cns.length * ⌈toSeconds s.coupling s.unit / s.dt⌉₊ := by
  induction cns generalizing s with
  | nil => simp [Sim.run]
  | cons c cs ih =>
    have hnext : s.nextDt = s.dt := by
      unfold Sim.Fixed at hf; simp [Sim.nextDt, hf]
    have hbud : s.budget s.nextDt (toSeconds s.coupling s.unit) = m - s.step := by
      simp [Sim.budget, hm]
    rw [List.length_cons, Nat.add_mul, Nat.one_mul] at hb
    have h1 := C03_advance_exact s c (by rw [hnext]; exact hdt) hi
      (by rw [hbud, hnext]; omega)
    rw [hnext] at h1
    have hf' : (s.advance c).Fixed := hf
    have hdt' : (s.advance c).dt = s.dt := by simp [Sim.advance, hnext]
    have h2 := ih (s.advance c) hf' hm (by rw [hdt']; exact hdt) hi
      (by rw [hdt', h1.2]; simp only [Sim.advance]; omega)
    rw [hdt', h1.1, h1.2] at h2
    have hr : s.run (c :: cs) = (s.advance c).run cs := rfl
    rw [hr]
    constructor
    · rw [h2.1]; simp only [Sim.advance, List.length_cons]; push_cast; ring
    · rw [h2.2]; simp only [Sim.advance, List.length_cons]; ring

/-- three calls of 10 s with steps of 3 s (four each) -/
example : (Sim.run ⟨0, 0, 3, some 12, .seconds, 30, 10, none, none⟩ [0.1, 0.2, 0.3]).time = 30 := by
  have hc : ⌈toSeconds 10 .seconds / 3⌉₊ = 4 := by
    rw [Nat.ceil_eq_iff (by norm_num)]
    norm_num [toSeconds]
  have := (C03_run_fixed ⟨0, 0, 3, some 12, .seconds, 30, 10, none, none⟩ 12 [0.1, 0.2, 0.3] rfl rfl
    (by norm_num) (by norm_num [toSeconds]) (by simp only [hc]; norm_num)).1
  rw [this]
  norm_num [toSeconds]

/-- A validated adaptive configuration (`/repo/src/yaml_input.c:955-962`): `0 < target`,
`1 < max_increase_factor`. -/
def AdaptiveCfg.Valid (a : AdaptiveCfg) : Prop := 0 < a.target ∧ a.target < 1 ∧ 1 < a.maxInc

/-- C03 (adaptive time step, no step limit): after any history of non-negative Courant numbers the
time is `t0 + n·interval` and the time step is still positive. -/
theorem C03_run_adaptive (s : Sim) (a : AdaptiveCfg) (cns : List ℝ) (ha : s.adaptive = some a)
    (hv : a.Valid) (hm : s.maxSteps = none) (hdt : 0 < s.dt)
    (hi : 0 < toSeconds s.coupling s.unit) (hc : ∀ c ∈ cns, 0 ≤ c)
    (h0 : ∀ c, s.courant = some c → 0 ≤ c) :
    (s.run cns).time = s.time + cns.length * toSeconds s.coupling s.unit ∧ 0 < (s.run cns).dt := by
  induction cns generalizing s with
  | nil => simpa [Sim.run] using hdt
  | cons c cs ih =>
    have hnext : 0 < s.nextDt := by
      cases hcr : s.courant with
      | none => simpa [Sim.nextDt, ha, hcr] using hdt
      | some c0 =>
        simp only [Sim.nextDt, ha, hcr]
        exact adaptDt_pos a hv.1 hv.2.2 hi hdt (h0 _ hcr)
    have h1 := C03_advance_exact s c hnext hi (by simp [Sim.budget, hm])
    have h2 := ih (s.advance c) ha hm hnext hi
      (fun x hx => hc x (List.mem_cons_of_mem _ hx))
      (by
        intro c' hc'
        simp only [Sim.advance, ha, Option.isSome_some, if_true, Option.some.injEq] at hc'
        subst hc'; exact hc _ List.mem_cons_self)
    have hr : s.run (c :: cs) = (s.advance c).run cs := rfl
    rw [hr]
    refine ⟨?_, h2.2⟩
    rw [h2.1, h1.1]; simp only [Sim.advance, List.length_cons]; push_cast; ring

example : ∃ (s : Sim) (a : AdaptiveCfg), s.adaptive = some a ∧ a.Valid ∧ s.maxSteps = none ∧
    0 < s.dt ∧ 0 < toSeconds s.coupling s.unit ∧ (∀ c ∈ [0.2, (0.7 : ℝ)], 0 ≤ c) ∧
    ∀ c, s.courant = some c → 0 ≤ c := by
  refine ⟨⟨0, 0, 1, none, .minutes, 60, 5, some ⟨0.5, 2⟩, none⟩, ⟨0.5, 2⟩, rfl, ?_, rfl, ?_, ?_, ?_, ?_⟩
  · norm_num [AdaptiveCfg.Valid]
  · norm_num
  · norm_num [toSeconds, secsInMin]
  · norm_num
  · simp

/-- C03: when time has advanced by `n` intervals, `RDyFinished` says so exactly when
`stop - (t0 + n·interval) < 1e-13` in the configured unit. -/
theorem C03_finished_iff (s s' : Sim) (n : ℕ) (hu : Supported s.unit)
    (hunit : s'.unit = s.unit) (hstop : s'.stop = s.stop)
    (ht : s'.time = s.time + n * toSeconds s.coupling s.unit) :
    s'.finished ↔ s.stop - (fromSeconds s.time s.unit + n * s.coupling) < 1e-13 := by
  unfold Sim.finished
  obtain ⟨f, hf, e⟩ := secondsPer_pos hu
  have hf' : (f : ℝ) ≠ 0 := by exact_mod_cast hf.ne'
  rw [hunit, hstop, ht, C01_fromSeconds_factor _ _ _ e, C01_fromSeconds_factor _ _ _ e,
    C01_toSeconds_factor _ _ _ e]
  have : (s.time + n * (s.coupling * f)) / f = s.time / f + n * s.coupling := by field_simp
  rw [this]

example (cn : ℝ) : ¬ (Sim.advance ⟨0, 0, 2, some 6, .hours, 3, 1, none, none⟩ cn).finished ↔
    ¬ (3 - (fromSeconds (Sim.advance ⟨0, 0, 2, some 6, .hours, 3, 1, none, none⟩ cn).time .hours + (0 : ℕ) * 1) <
      (1e-13 : ℝ)) :=
  not_congr (C03_finished_iff (Sim.advance ⟨0, 0, 2, some 6, .hours, 3, 1, none, none⟩ cn) _ 0
    (by simp [Supported, Sim.advance]) rfl rfl (by simp))

/-- C03 (adaptive): the driver loop terminates.  There is a number `N` of calls, the same for every
history of Courant numbers, after which `RDyFinished` holds, before which it does not, and the
final time exceeds the stop time by less than one coupling interval. -/
theorem C03_driver_terminates_adaptive (s : Sim) (a : AdaptiveCfg) (ha : s.adaptive = some a)
    (hv : a.Valid) (hm : s.maxSteps = none) (hdt : 0 < s.dt) (hu : Supported s.unit)
    (hi : 0 < s.coupling) (h0 : ∀ c, s.courant = some c → 0 ≤ c) (ht0 : s.time = 0)
    (hs : 1e-13 ≤ s.stop) :
    ∃ N : ℕ, 0 < N ∧ (∀ cns : List ℝ, (∀ c ∈ cns, 0 ≤ c) →
        (cns.length = N → (s.run cns).finished ∧
          fromSeconds (s.run cns).time s.unit < s.stop + s.coupling) ∧
        (cns.length < N → ¬ (s.run cns).finished)) := by
  obtain ⟨f, hf, e⟩ := secondsPer_pos hu
  have hf' : (0 : ℝ) < f := by exact_mod_cast hf
  have hi' : 0 < toSeconds s.coupling s.unit := by
    rw [C01_toSeconds_factor _ _ _ e]; exact mul_pos hi hf'
  have hz : fromSeconds s.time s.unit = 0 := by rw [ht0, C01_fromSeconds_factor _ _ _ e]; simp
  have hex : ∃ n : ℕ, s.stop - n * s.coupling < 1e-13 := by
    obtain ⟨n, hn⟩ := exists_nat_gt ((s.stop) / s.coupling)
    refine ⟨n, ?_⟩
    rw [div_lt_iff₀ hi] at hn
    have : (0:ℝ) < 1e-13 := by norm_num
    linarith
  classical
  have key : ∀ cns : List ℝ, (∀ c ∈ cns, 0 ≤ c) →
      ((s.run cns).finished ↔ s.stop - cns.length * s.coupling < 1e-13) := by
    intro cns hc
    have hr := C03_run_adaptive s a cns ha hv hm hdt hi' hc h0
    have hfr := C03_run_frame s cns
    rw [C03_finished_iff s (s.run cns) cns.length hu hfr.1 hfr.2.1 hr.1, hz, zero_add]
  refine ⟨Nat.find hex, ?_, ?_⟩
  · rw [Nat.find_pos]
    push_cast
    linarith
  · intro cns hc
    refine ⟨?_, ?_⟩
    · intro hl
      refine ⟨(key cns hc).2 (by rw [hl]; exact Nat.find_spec hex), ?_⟩
      have hr := C03_run_adaptive s a cns ha hv hm hdt hi' hc h0
      rw [hr.1, ht0, C01_fromSeconds_factor _ _ _ e, C01_toSeconds_factor _ _ _ e, hl]
      have hpos : 0 < Nat.find hex := by
        rw [Nat.find_pos]; push_cast; linarith
      have hlt := Nat.find_min hex (m := Nat.find hex - 1) (by omega)
      rw [Nat.cast_sub (by omega)] at hlt
      push Not at hlt
      have : (0 + (Nat.find hex : ℝ) * (s.coupling * f)) / f = (Nat.find hex : ℝ) * s.coupling := by
        rw [zero_add, ← mul_assoc, mul_div_assoc, div_self hf'.ne', mul_one]
      rw [this]
      have h13 : (0:ℝ) < 1e-13 := by norm_num
      push_cast at hlt
      linarith
    · intro hl hfin
      exact Nat.find_min hex hl ((key cns hc).1 hfin)

example : ∃ N : ℕ, 0 < N ∧ ∀ cns : List ℝ, (∀ c ∈ cns, 0 ≤ c) →
    (cns.length = N → (Sim.run ⟨0, 0, 1, none, .minutes, 60, 7, some ⟨0.5, 2⟩, none⟩ cns).finished ∧
      fromSeconds (Sim.run ⟨0, 0, 1, none, .minutes, 60, 7, some ⟨0.5, 2⟩, none⟩ cns).time .minutes < 60 + 7) ∧
    (cns.length < N → ¬ (Sim.run ⟨0, 0, 1, none, .minutes, 60, 7, some ⟨0.5, 2⟩, none⟩ cns).finished) :=
  C03_driver_terminates_adaptive ⟨0, 0, 1, none, .minutes, 60, 7, some ⟨0.5, 2⟩, none⟩ ⟨0.5, 2⟩ rfl
    (by norm_num [AdaptiveCfg.Valid]) rfl (by norm_num) (by simp [Supported]) (by norm_num) (by simp) rfl
    (by norm_num)

/-- C03 (fixed step): the driver loop terminates after the same number of calls provided the step
limit admits all the steps needed; this is the code's implicit assumption
`N·⌈interval/dt⌉ ≤ stop_n`. -/
theorem C03_driver_terminates_fixed_partial (s : Sim) (m N : ℕ) (hf : s.Fixed)
    (hm : s.maxSteps = some m) (hdt : 0 < s.dt) (hu : Supported s.unit) (hi : 0 < s.coupling)
    (ht0 : s.time = 0) (hs0 : s.step = 0)
    (hN : s.stop - N * s.coupling < 1e-13)
    (hmin : ∀ k < N, 1e-13 ≤ s.stop - k * s.coupling)
    (hb : N * ⌈toSeconds s.coupling s.unit / s.dt⌉₊ ≤ m) :
    ∀ cns : List ℝ, (cns.length = N → (s.run cns).finished) ∧
      (cns.length < N → ¬ (s.run cns).finished) := by
  obtain ⟨f, hf0, e⟩ := secondsPer_pos hu
  have hf' : (0 : ℝ) < f := by exact_mod_cast hf0
  have hi' : 0 < toSeconds s.coupling s.unit := by
    rw [C01_toSeconds_factor _ _ _ e]; exact mul_pos hi hf'
  have hz : fromSeconds s.time s.unit = 0 := by rw [ht0, C01_fromSeconds_factor _ _ _ e]; simp
  have key : ∀ cns : List ℝ, cns.length ≤ N →
      ((s.run cns).finished ↔ s.stop - cns.length * s.coupling < 1e-13) := by
    intro cns hc
    have hr := C03_run_fixed s m cns hf hm hdt hi'
      (by rw [hs0, zero_add]; exact (Nat.mul_le_mul_right _ hc).trans hb)
    have hfr := C03_run_frame s cns
    rw [C03_finished_iff s (s.run cns) cns.length hu hfr.1 hfr.2.1 hr.1, hz, zero_add]
  intro cns
  refine ⟨fun hl => (key cns hl.le).2 (by rw [hl]; exact hN), fun hl hfin => ?_⟩
  have := (key cns hl.le).1 hfin
  have := hmin _ hl
  linarith

example : ∃ s : Sim, s.Fixed ∧ s.maxSteps = some 12 ∧ 0 < s.dt ∧ Supported s.unit ∧
    0 < s.coupling ∧ s.time = 0 ∧ s.step = 0 ∧ s.stop - (4:ℕ) * s.coupling < 1e-13 ∧
    (∀ k < 4, 1e-13 ≤ s.stop - (k:ℕ) * s.coupling) ∧
    4 * ⌈toSeconds s.coupling s.unit / s.dt⌉₊ ≤ 12 := by
  refine ⟨⟨0, 0, 1, some 12, .seconds, 12, 3, none, none⟩, rfl, rfl, by norm_num,
    by simp [Supported], by norm_num, rfl, rfl, by norm_num, ?_, ?_⟩
  · intro k hk
    have : (k:ℝ) ≤ 3 := by exact_mod_cast (by omega : k ≤ 3)
    norm_num; linarith
  · have : ⌈toSeconds 3 .seconds / 1⌉₊ = 3 := by
      simp only [toSeconds]; norm_num
    simp only [this]; norm_num

/-- C03, full statement refuted: whenever the step limit times the time step falls short of the
stop time, no number of calls ever makes `RDyFinished` true (the documented "maximum number of time
steps has been reached" criterion is not implemented), so the driver loop cannot end normally. -/
theorem C03_step_limit_never_finishes_violated (s : Sim) (m : ℕ) (hf : s.Fixed)
    (hm : s.maxSteps = some m) (hu : Supported s.unit) (hdt : 0 < s.dt) (ht0 : s.time = 0)
    (hs0 : s.step = 0) (hshort : 1e-13 ≤ s.stop - fromSeconds (m * s.dt) s.unit) :
    ∀ cns : List ℝ, ¬ (s.run cns).finished := by
  have inv : ∀ (cns : List ℝ) (s : Sim), s.Fixed → s.maxSteps = some m → s.step ≤ m →
      s.time ≤ s.step * s.dt → 0 < s.dt →
      (s.run cns).step ≤ m ∧ (s.run cns).time ≤ (s.run cns).step * s.dt := by
    intro cns
    induction cns with
    | nil => intro s _ _ h1 h2 _; exact ⟨h1, h2⟩
    | cons c cs ih =>
      intro s hf hm h1 h2 hdt
      have hnext : s.nextDt = s.dt := by
        unfold Sim.Fixed at hf; simp [Sim.nextDt, hf]
      have hbud : s.budget s.dt (toSeconds s.coupling s.unit) = m - s.step := by
        simp [Sim.budget, hm]
      have hst := tsLoop_steps_le s.dt (s.time + toSeconds s.coupling s.unit) (m - s.step) s.time
      have hti := tsLoop_time_le s.dt (s.time + toSeconds s.coupling s.unit) (m - s.step) s.time
      have hd' : (s.advance c).dt = s.dt := by simp [Sim.advance, hnext]
      have := ih (s.advance c) hf hm
        (by simp only [Sim.advance, hnext, hbud]; omega)
        (by
          simp only [Sim.advance, hnext, hbud]
          push_cast
          linarith)
        (by rw [hd']; exact hdt)
      rw [hd'] at this
      exact this
  intro cns hfin
  obtain ⟨h1, h2⟩ := inv cns s hf hm (by omega) (by rw [ht0, hs0]; simp) hdt
  have hfr := C03_run_frame s cns
  obtain ⟨f, hf0, e⟩ := secondsPer_pos hu
  have hf' : (0 : ℝ) < f := by exact_mod_cast hf0
  unfold Sim.finished at hfin
  rw [hfr.1, hfr.2.1, C01_fromSeconds_factor _ _ _ e] at hfin
  rw [C01_fromSeconds_factor _ _ _ e] at hshort
  have h3 : (s.run cns).time ≤ m * s.dt := by
    refine h2.trans ?_
    have : ((s.run cns).step : ℝ) ≤ m := by exact_mod_cast h1
    exact mul_le_mul_of_nonneg_right this hdt.le
  have := div_le_div_of_nonneg_right h3 hf'.le
  linarith

/-- C03 witness: `stop: 10 s, time_step: 3 s` (so that `stop_n = (int)(10/3) = 3` is derived by
validation) never finishes. -/
theorem C03_stop_not_multiple_of_dt_violated :
    ∀ cns : List ℝ,
      ¬ (Sim.run ⟨0, 0, 3, some 3, .seconds, 10, 10, none, none⟩ cns).finished :=
  C03_step_limit_never_finishes_violated _ 3 rfl rfl (by simp [Supported]) (by norm_num) rfl rfl
    (by norm_num [fromSeconds])

/-- C04: the adapted time step is positive, for any non-negative measured Courant number. -/
theorem C04_adapt_pos (a : AdaptiveCfg) (hv : a.Valid) {interval dt cn : ℝ} (hi : 0 < interval)
    (hdt : 0 < dt) (hcn : 0 ≤ cn) : 0 < adaptDt a interval dt cn :=
  adaptDt_pos a hv.1 hv.2.2 hi hdt hcn

example : 0 < adaptDt ⟨0.5, 2⟩ 10 4 0 :=
  C04_adapt_pos ⟨0.5, 2⟩ (by norm_num [AdaptiveCfg.Valid]) (by norm_num) (by norm_num) le_rfl

/-- C04: the time step never grows by more than `max_increase_factor`. -/
theorem C04_adapt_growth (a : AdaptiveCfg) (hv : a.Valid) {interval dt cn : ℝ}
    (hdt : 0 < dt) : adaptDt a interval dt cn ≤ dt * a.maxInc := by
  obtain ⟨h0, -, h1⟩ := hv
  unfold adaptDt
  split_ifs with h2
  · rw [clampTo_eq_min]
    exact (min_le_right _ _).trans (mul_le_mul_of_nonneg_left (increaseFactor_le a cn) hdt.le)
  · push Not at h2
    have hc : 0 < cn := by linarith
    have : a.target / cn ≤ 1 := by rw [div_le_one hc]; exact h2
    exact mul_le_mul_of_nonneg_left (by linarith) hdt.le

example : adaptDt ⟨0.5, 2⟩ 10 4 0.01 ≤ 4 * 2 :=
  C04_adapt_growth ⟨0.5, 2⟩ (by norm_num [AdaptiveCfg.Valid]) (by norm_num)

/-- C04: the time step never grows when the measured Courant number is at or above the target, and
never shrinks below `min dt interval` otherwise. -/
theorem C04_adapt_direction (a : AdaptiveCfg) (hv : a.Valid) {interval dt cn : ℝ}
    (hdt : 0 < dt) (hcn : 0 ≤ cn) :
    (a.target ≤ cn → adaptDt a interval dt cn ≤ dt) ∧
    (cn < a.target → min dt interval ≤ adaptDt a interval dt cn ∧
      adaptDt a interval dt cn ≤ interval) := by
  obtain ⟨h0, -, h1⟩ := hv
  unfold adaptDt
  constructor
  · intro h
    rw [if_neg (by linarith)]
    have hc : 0 < cn := by linarith
    have : a.target / cn ≤ 1 := by rw [div_le_one hc]; exact h
    calc dt * (a.target / cn) ≤ dt * 1 := mul_le_mul_of_nonneg_left this hdt.le
      _ = dt := mul_one _
  · intro h
    rw [if_pos h, clampTo_eq_min]
    refine ⟨le_min (min_le_right _ _) ((min_le_left _ _).trans ?_), min_le_left _ _⟩
    have := mul_le_mul_of_nonneg_left (one_le_increaseFactor a h1 hcn h) hdt.le
    linarith

example : adaptDt ⟨0.5, 2⟩ 10 4 0.7 ≤ 4 ∧ min 4 10 ≤ adaptDt ⟨0.5, 2⟩ 10 4 0.3 :=
  ⟨(C04_adapt_direction ⟨0.5, 2⟩ (by norm_num [AdaptiveCfg.Valid]) (by norm_num) (by norm_num)).1 (by norm_num),
    ((C04_adapt_direction ⟨0.5, 2⟩ (by norm_num [AdaptiveCfg.Valid]) (by norm_num) (by norm_num)).2
      (by norm_num)).1⟩

/-- C04: if the measured Courant number belongs to the current time step (Courant number
proportional to the step size: `cn = lam·dt`), the predicted Courant number of the new step is at
most the target; and it equals the target when neither limit is active. -/
theorem C04_adapt_target_partial (a : AdaptiveCfg) (hv : a.Valid) {interval dt lam : ℝ}
    (hdt : 0 < dt) (hl : 0 ≤ lam) :
    lam * adaptDt a interval dt (lam * dt) ≤ a.target := by
  obtain ⟨h0, -, h1⟩ := hv
  rcases hl.eq_or_lt with hz | hpos
  · subst hz; simpa using h0.le
  have hc : 0 < lam * dt := mul_pos hpos hdt
  have hfin : lam * (dt * (a.target / (lam * dt))) = a.target := by field_simp
  unfold adaptDt
  split_ifs with h2
  · rw [clampTo_eq_min]
    calc lam * min interval (dt * increaseFactor a (lam * dt))
        ≤ lam * (dt * (a.target / (lam * dt))) := by
          refine mul_le_mul_of_nonneg_left ((min_le_right _ _).trans
            (mul_le_mul_of_nonneg_left ?_ hdt.le)) hl
          unfold increaseFactor
          rw [if_neg hc.ne']
          exact min_le_left _ _
      _ = a.target := hfin
  · exact hfin.le

example : (AdaptiveCfg.mk 0.5 2).Valid ∧ adaptDt ⟨0.5, 2⟩ 10 4 (0.1 * 4) = 5 := by
  constructor
  · norm_num [AdaptiveCfg.Valid]
  · unfold adaptDt clampTo increaseFactor; norm_num

/-- C04: over any history of measurements starting from a step not larger than the (constant)
coupling interval, the time step stays in `(0, interval]`. -/
theorem C04_history_bounds (s : Sim) (a : AdaptiveCfg) (cns : List ℝ) (ha : s.adaptive = some a)
    (hv : a.Valid) (hi : 0 < toSeconds s.coupling s.unit)
    (hdt : 0 < s.dt) (hle : s.dt ≤ toSeconds s.coupling s.unit)
    (hc : ∀ c ∈ cns, 0 ≤ c) (h0 : ∀ c, s.courant = some c → 0 ≤ c) :
    0 < (s.run cns).dt ∧ (s.run cns).dt ≤ toSeconds s.coupling s.unit := by
  induction cns generalizing s with
  | nil => exact ⟨hdt, hle⟩
  | cons c cs ih =>
    have hnext : 0 < s.nextDt ∧ s.nextDt ≤ toSeconds s.coupling s.unit := by
      cases hcr : s.courant with
      | none => simpa [Sim.nextDt, ha, hcr] using ⟨hdt, hle⟩
      | some c0 =>
        simp only [Sim.nextDt, ha, hcr]
        refine ⟨C04_adapt_pos a hv hi hdt (h0 _ hcr), ?_⟩
        have hcn := h0 _ hcr
        by_cases hlt : c0 < a.target
        · exact ((C04_adapt_direction a hv hdt hcn).2 hlt).2
        · push Not at hlt
          exact ((C04_adapt_direction a hv hdt hcn).1 hlt).trans hle
    exact ih (s.advance c) ha hi hnext.1 hnext.2
      (fun x hx => hc x (List.mem_cons_of_mem _ hx))
      (by
        intro c' hc'
        simp only [Sim.advance, ha, Option.isSome_some, if_true, Option.some.injEq] at hc'
        subst hc'; exact hc _ List.mem_cons_self)

example (cns : List ℝ) (hc : ∀ c ∈ cns, 0 ≤ c) :
    (Sim.run ⟨0, 0, 1, none, .minutes, 60, 7, some ⟨0.5, 2⟩, none⟩ cns).dt ≤ toSeconds 7 .minutes :=
  (C04_history_bounds ⟨0, 0, 1, none, .minutes, 60, 7, some ⟨0.5, 2⟩, none⟩ ⟨0.5, 2⟩ cns rfl
    (by norm_num [AdaptiveCfg.Valid]) (by norm_num [toSeconds, secsInMin]) (by norm_num)
    (by norm_num [toSeconds, secsInMin]) hc (by simp)).2

/-- C04, full statement refuted: the Courant number fed back is the one of the *last* step of the
interval, which `MATCHSTEP` may have shortened, while the factor is applied to the full time step.
With interval 10 s, step 4 s (steps taken: 4, 4, 2 s) and Courant number `0.125·(step size)`, target
`0.5`, the adapted step is 8 s and its Courant number is 1, twice the target. -/
theorem C04_shortened_last_step_violated :
    ∃ (a : AdaptiveCfg) (lam interval dt : ℝ), a.Valid ∧ 0 < lam ∧ 0 < dt ∧ dt ≤ interval ∧
      lam * dt ≤ a.target ∧
      tsLastDt dt interval 3 0 dt < dt ∧ (tsLoop dt interval 3 0).1 = interval ∧
      a.target < lam * adaptDt a interval dt (lam * tsLastDt dt interval 3 0 dt) := by
  refine ⟨⟨0.5, 2⟩, 0.125, 10, 4, by norm_num [AdaptiveCfg.Valid], by norm_num, by norm_num,
    by norm_num, by norm_num, ?_, ?_, ?_⟩
  · norm_num [tsLastDt, min_def]
  · norm_num [tsLoop, min_def]
  · have : tsLastDt 4 10 3 0 4 = 2 := by norm_num [tsLastDt, min_def]
    rw [this]; unfold adaptDt clampTo increaseFactor; norm_num

/-- C04: a step larger than a (later shortened) coupling interval is not reduced to it in the
decreasing branch. -/
theorem C04_interval_bound_violated :
    ∃ (a : AdaptiveCfg) (interval dt cn : ℝ), a.Valid ∧ 0 < interval ∧ 0 < dt ∧
      interval < adaptDt a interval dt cn := by
  refine ⟨⟨0.5, 2⟩, 1, 10, 0.8, by norm_num [AdaptiveCfg.Valid], by norm_num, by norm_num, ?_⟩
  unfold adaptDt; norm_num

end RDy
