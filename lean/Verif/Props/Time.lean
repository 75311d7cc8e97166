import Verif.Model.Time
import Mathlib.Tactic.FieldSimp
import Mathlib.Tactic.Ring
import Mathlib.Tactic.Linarith
import Mathlib.Tactic.NormNum

/-!
Properties C01 (time-unit conversion) and C02 (coupling interval get-after-set).
-/

namespace RDy

/-- Specification: seconds per unit, written out as plain numbers. -/
def secondsPer : TimeUnit → Option ℕ
  | .unset => none
  | .seconds => some 1
  | .minutes => some 60
  | .hours => some 3600
  | .days => some 86400
  | .months => some 2592000
  | .years => some 31536000

/-- A unit the conversion functions support. -/
def Supported (u : TimeUnit) : Prop := u ≠ .unset

/-- C01: conversion to seconds multiplies by the calendar-free factor of the unit. -/
theorem C01_toSeconds_factor (t : ℝ) (u : TimeUnit) (f : ℕ) (h : secondsPer u = some f) :
    toSeconds t u = t * f := by
  cases u <;> simp [secondsPer] at h <;> subst h <;>
    simp only [toSeconds, secsInMin, minsInHr, hrsInDay, daysInMon, daysInYr] <;> push_cast <;> ring

example : toSeconds 2 .hours = 2 * (3600 : ℕ) := C01_toSeconds_factor 2 .hours 3600 (by decide)

/-- C01: conversion from seconds divides by the calendar-free factor of the unit. -/
theorem C01_fromSeconds_factor (t : ℝ) (u : TimeUnit) (f : ℕ) (h : secondsPer u = some f) :
    fromSeconds t u = t / f := by
  cases u <;> simp [secondsPer] at h <;> subst h <;>
    simp only [fromSeconds, secsInMin, minsInHr, hrsInDay, daysInMon, daysInYr] <;> push_cast <;> ring

example : secondsPer .days = some 86400 ∧ toSeconds 2 .days = 172800 := by
  refine ⟨rfl, ?_⟩
  norm_num [toSeconds, secsInMin, minsInHr, hrsInDay]

/-- Every supported unit has a positive factor. -/
theorem secondsPer_pos {u : TimeUnit} (h : Supported u) : ∃ f : ℕ, 0 < f ∧ secondsPer u = some f := by
  cases u <;> simp_all [Supported, secondsPer]

/-- C01: to seconds and back is the identity. -/
theorem C01_roundtrip_from_to (t : ℝ) (u : TimeUnit) (h : Supported u) :
    fromSeconds (toSeconds t u) u = t := by
  obtain ⟨f, hf, e⟩ := secondsPer_pos h
  have : (f : ℝ) ≠ 0 := by exact_mod_cast hf.ne'
  rw [C01_toSeconds_factor _ _ _ e, C01_fromSeconds_factor _ _ _ e]; field_simp

/-- C01: from seconds and back is the identity. -/
theorem C01_roundtrip_to_from (t : ℝ) (u : TimeUnit) (h : Supported u) :
    toSeconds (fromSeconds t u) u = t := by
  obtain ⟨f, hf, e⟩ := secondsPer_pos h
  have : (f : ℝ) ≠ 0 := by exact_mod_cast hf.ne'
  rw [C01_fromSeconds_factor _ _ _ e, C01_toSeconds_factor _ _ _ e]; field_simp

example : Supported .years ∧ fromSeconds (toSeconds 1.5 .years) .years = 1.5 :=
  ⟨by simp [Supported], C01_roundtrip_from_to _ _ (by simp [Supported])⟩

/-- C01: converting through an intermediate unit gives the same result as converting directly. -/
theorem C01_convert_route_independent (t : ℝ) (u v w : TimeUnit) (hv : Supported v) :
    convertTime v (convertTime u t v) w = convertTime u t w := by
  simp only [convertTime]
  rw [C01_roundtrip_to_from _ _ hv]

/-- days to minutes by way of hours -/
example : convertTime .hours (convertTime .days 2 .hours) .minutes = convertTime .days 2 .minutes :=
  C01_convert_route_independent 2 .days .hours .minutes (by simp [Supported, secondsPer])

/-- C01: converting a time to its own unit changes nothing. -/
theorem C01_convert_self (t : ℝ) (u : TimeUnit) (h : Supported u) : convertTime u t u = t :=
  C01_roundtrip_from_to t u h

example : convertTime .days 2.5 .days = 2.5 := C01_convert_self 2.5 .days (by simp [Supported, secondsPer])

/-- C01: conversion is order-preserving. -/
theorem C01_convert_strictMono (u v : TimeUnit) (hu : Supported u) (hv : Supported v) :
    StrictMono (fun t => convertTime u t v) := by
  obtain ⟨f, hf, e⟩ := secondsPer_pos hu
  obtain ⟨g, hg, e'⟩ := secondsPer_pos hv
  have hf' : (0 : ℝ) < f := by exact_mod_cast hf
  have hg' : (0 : ℝ) < g := by exact_mod_cast hg
  intro a b hab
  simp only [convertTime, C01_toSeconds_factor _ _ _ e, C01_fromSeconds_factor _ _ _ e']
  exact div_lt_div_of_pos_right (mul_lt_mul_of_pos_right hab hf') hg'

example : convertTime .days 2 .minutes < convertTime .days 3 .minutes :=
  C01_convert_strictMono .days .minutes (by simp [Supported, secondsPer]) (by simp [Supported, secondsPer])
    (show (2 : ℝ) < 3 by norm_num)

/-- C01: conversion respects differences (so durations may be converted like times). -/
theorem C01_convert_sub (s t : ℝ) (u v : TimeUnit) (hu : Supported u) (hv : Supported v) :
    convertTime u (s - t) v = convertTime u s v - convertTime u t v := by
  obtain ⟨f, -, e⟩ := secondsPer_pos hu
  obtain ⟨g, -, e'⟩ := secondsPer_pos hv
  simp only [convertTime, C01_toSeconds_factor _ _ _ e, C01_fromSeconds_factor _ _ _ e']
  ring

example : Supported .hours ∧ Supported .minutes ∧ convertTime .hours 2 .minutes = 120 := by
  refine ⟨by simp [Supported], by simp [Supported], ?_⟩
  norm_num [convertTime, toSeconds, fromSeconds, secsInMin, minsInHr]

/-- C01 (error branch): with an unset unit the code reports the PETSc error code as if it were a
time: every time converts to the same number, so the round trip fails. -/
theorem C01_unset_unit_is_error_code (t : ℝ) :
    toSeconds t .unset = 83 ∧ fromSeconds t .unset = 83 := ⟨rfl, rfl⟩

/-- C01: the round trip fails for an unset unit. -/
theorem C01_unset_roundtrip_violated : ∃ t : ℝ, fromSeconds (toSeconds t .unset) .unset ≠ t :=
  ⟨0, by norm_num [fromSeconds, petscErrUser]⟩

/-- C02: get-after-set returns the interval set, expressed in the unit asked for, whatever unit the
configuration uses. -/
theorem C02_get_after_set (c : CouplingCfg) (u v : TimeUnit) (x : ℝ) (hc : Supported c.unit) :
    getCoupling (setCoupling c u x) v = convertTime u x v := by
  simp only [getCoupling, setCoupling, convertTime]
  rw [C01_roundtrip_to_from _ _ hc]

/-- C02: in particular asking in the unit used for setting gives back the number set. -/
theorem C02_get_after_set_same_unit (c : CouplingCfg) (u : TimeUnit) (x : ℝ)
    (hc : Supported c.unit) (hu : Supported u) : getCoupling (setCoupling c u x) u = x := by
  rw [C02_get_after_set c u u x hc, C01_convert_self x u hu]

/-- C02: setting an interval that was read back changes nothing. -/
theorem C02_set_get (c : CouplingCfg) (u : TimeUnit) (hc : Supported c.unit) (hu : Supported u) :
    setCoupling c u (getCoupling c u) = c := by
  cases c with
  | mk unit coupling =>
    simp only [getCoupling, setCoupling, convertTime] at *
    rw [C01_roundtrip_to_from _ _ hu, C01_roundtrip_from_to _ _ hc]

/-- C02: the last set wins, for any history of sets. -/
theorem C02_last_set_wins (c : CouplingCfg) (hist : List (TimeUnit × ℝ)) (u v : TimeUnit) (x : ℝ)
    (hc : Supported c.unit) :
    getCoupling (setCoupling (hist.foldl (fun c p => setCoupling c p.1 p.2) c) u x) v
      = convertTime u x v := by
  have hunit : ∀ (hist : List (TimeUnit × ℝ)) (c : CouplingCfg),
      (hist.foldl (fun c p => setCoupling c p.1 p.2) c).unit = c.unit := by
    intro hist
    induction hist with
    | nil => intro c; rfl
    | cons p ps ih => intro c; rw [List.foldl_cons, ih]; rfl
  exact C02_get_after_set _ u v x (by rw [hunit]; exact hc)

example : Supported (CouplingCfg.mk .hours 1).unit ∧
    getCoupling (setCoupling ⟨.hours, 1⟩ .minutes 30) .seconds = 1800 := by
  refine ⟨by simp [Supported], ?_⟩
  rw [C02_get_after_set _ _ _ _ (by simp [Supported])]
  norm_num [convertTime, toSeconds, fromSeconds, secsInMin]

/-- C02: a positive interval is stored as a positive interval (in the configuration's unit). -/
theorem C02_set_positive_partial (c : CouplingCfg) (u : TimeUnit) (x : ℝ) (hc : Supported c.unit)
    (hu : Supported u) : 0 < (setCoupling c u x).coupling ↔ 0 < x := by
  have hm := C01_convert_strictMono u c.unit hu hc
  have h0 : convertTime u 0 c.unit = 0 := by
    have := C01_convert_sub 0 0 u c.unit hu hc
    simpa using this
  have := hm.lt_iff_lt (a := 0) (b := x)
  simp only [h0] at this
  exact this

/-- C02, full statement refuted: `RDySetCouplingInterval` accepts and stores a non-positive
interval. -/
theorem C02_nonpositive_accepted_violated :
    ∃ (c : CouplingCfg) (x : ℝ), x ≤ 0 ∧ getCoupling (setCoupling c .seconds x) .seconds = x :=
  ⟨⟨.seconds, 1⟩, -1, by norm_num, rfl⟩

end RDy
