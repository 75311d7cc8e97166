import Verif.Model.Calendar
import Mathlib.Tactic

/-! Facts about the calendar of `Verif/Model/Calendar.lean`. -/

namespace RDy

/-- Number of days of a month: February has 29 days in the years divisible by 4, except for those
that are divisible by 100 but not by 400. -/
def monthLen (y m : ℤ) : ℤ :=
  if m = 2 then (if 4 ∣ y ∧ (100 ∣ y → 400 ∣ y) then 29 else 28)
  else if m = 4 ∨ m = 6 ∨ m = 9 ∨ m = 11 then 30 else 31

/-- A calendar date and time of day. -/
structure ValidTm (t : Tm) : Prop where
  mon : 1 ≤ t.mon ∧ t.mon ≤ 12
  day : 1 ≤ t.day ∧ t.day ≤ monthLen t.year t.mon
  hour : 0 ≤ t.hour ∧ t.hour < 24
  min : 0 ≤ t.min ∧ t.min < 60
  sec : 0 ≤ t.sec ∧ t.sec < 60

theorem leapYear_iff (y : ℤ) : leapYear y = true ↔ y % 4 = 0 ∧ (y % 100 ≠ 0 ∨ y % 400 = 0) := by
  simp [leapYear]

theorem leapYear_iff' (y : ℤ) : leapYear y = true ↔ 4 ∣ y ∧ (100 ∣ y → 400 ∣ y) := by
  rw [leapYear_iff]; omega

theorem monthLen_two (y : ℤ) : monthLen y 2 = 28 + leapDay y := by
  unfold monthLen leapDay
  rw [if_pos rfl]
  by_cases h : leapYear y = true
  · rw [if_pos h, if_pos ((leapYear_iff' y).1 h)]; rfl
  · rw [if_neg h, if_neg (fun g => h ((leapYear_iff' y).2 g))]; rfl

theorem leapDay_bounds (y : ℤ) : 0 ≤ leapDay y ∧ leapDay y ≤ 1 := by
  unfold leapDay; split_ifs <;> omega

theorem daysToYear_succ (y : ℤ) : daysToYear (y + 1) = daysToYear y + 365 + leapDay y := by
  unfold daysToYear leapDay
  by_cases h : leapYear y = true
  · rw [if_pos h]; rw [leapYear_iff] at h; omega
  · rw [if_neg h]; rw [leapYear_iff] at h; omega

theorem daysToYear_mono (y : ℤ) (n : ℕ) : daysToYear y + 365 * n ≤ daysToYear (y + n) := by
  induction n with
  | zero => simp
  | succ n ih =>
    have := daysToYear_succ (y + n)
    have b := (leapDay_bounds (y + n)).1
    push_cast at *
    rw [← add_assoc]
    omega

theorem daysToYear_lt {y z : ℤ} (h : y < z) : daysToYear (y + 1) ≤ daysToYear z := by
  obtain ⟨n, hn⟩ := Int.eq_ofNat_of_zero_le (by omega : 0 ≤ z - (y + 1))
  have := daysToYear_mono (y + 1) n
  rw [show y + 1 + (n : ℤ) = z by omega] at this
  omega

theorem monthLen_eq (y m : ℤ) (h1 : 1 ≤ m) (h2 : m ≤ 11) :
    daysToMonth y (m + 1) = daysToMonth y m + monthLen y m := by
  have : m = 1 ∨ m = 2 ∨ m = 3 ∨ m = 4 ∨ m = 5 ∨ m = 6 ∨ m = 7 ∨ m = 8 ∨ m = 9 ∨ m = 10 ∨ m = 11 := by
    omega
  rcases this with h | h | h | h | h | h | h | h | h | h | h <;> subst h
  · unfold daysToMonth monthLen; norm_num
  · rw [monthLen_two]; unfold daysToMonth; norm_num; ring
  all_goals unfold daysToMonth monthLen; norm_num; try ring

theorem daysToMonth_last (y : ℤ) : daysToMonth y 12 + monthLen y 12 = 365 + leapDay y := by
  unfold monthLen daysToMonth; norm_num; ring

theorem monthLen_bounds (y m : ℤ) : 28 ≤ monthLen y m ∧ monthLen y m ≤ 31 := by
  unfold monthLen; split_ifs <;> omega

theorem daysToMonth_mono (y m m' : ℤ) (h1 : 1 ≤ m) (h : m ≤ m') (h2 : m' ≤ 12) :
    daysToMonth y m ≤ daysToMonth y m' := by
  obtain ⟨n, hn⟩ := Int.eq_ofNat_of_zero_le (by omega : 0 ≤ m' - m)
  have e : m' = m + n := by omega
  subst e
  clear hn h
  induction n with
  | zero => simp
  | succ n ih =>
    push_cast at *
    have a := monthLen_eq y (m + n) (by omega) (by omega)
    have b := (monthLen_bounds y (m + n)).1
    have c := ih (by omega)
    rw [← add_assoc]
    omega

theorem daysToMonth_one (y : ℤ) : daysToMonth y 1 = 0 := by unfold daysToMonth; norm_num

/-- The day number of a date. -/
def dayNumber (y m d : ℤ) : ℤ := daysToYear y + daysToMonth y m + (d - 1)

theorem dayNumber_lt_year (y m d : ℤ) (hm : 1 ≤ m ∧ m ≤ 12) (hd : 1 ≤ d ∧ d ≤ monthLen y m) :
    daysToYear y ≤ dayNumber y m d ∧ dayNumber y m d < daysToYear (y + 1) := by
  unfold dayNumber
  have h0 := daysToMonth_mono y 1 m le_rfl hm.1 hm.2
  rw [daysToMonth_one] at h0
  have h1 := daysToYear_succ y
  have h2 := daysToMonth_last y
  refine ⟨by omega, ?_⟩
  rcases eq_or_lt_of_le hm.2 with h | h
  · subst h; omega
  · have := monthLen_eq y m hm.1 (by omega)
    have := daysToMonth_mono y (m + 1) 12 (by omega) (by omega) le_rfl
    have := (monthLen_bounds y 12).1
    omega

theorem dayNumber_inj (y m d y' m' d' : ℤ) (hm : 1 ≤ m ∧ m ≤ 12) (hd : 1 ≤ d ∧ d ≤ monthLen y m)
    (hm' : 1 ≤ m' ∧ m' ≤ 12) (hd' : 1 ≤ d' ∧ d' ≤ monthLen y' m')
    (h : dayNumber y m d = dayNumber y' m' d') : y = y' ∧ m = m' ∧ d = d' := by
  have a := dayNumber_lt_year y m d hm hd
  have b := dayNumber_lt_year y' m' d' hm' hd'
  have hy : y = y' := by
    rcases lt_trichotomy y y' with g | g | g
    · have := daysToYear_lt g; omega
    · exact g
    · have := daysToYear_lt g; omega
  subst hy
  have key : ∀ m d m' d' : ℤ, (1 ≤ m ∧ m ≤ 12) → (1 ≤ d ∧ d ≤ monthLen y m) →
      (1 ≤ m' ∧ m' ≤ 12) → (1 ≤ d' ∧ d' ≤ monthLen y m') → m < m' →
      dayNumber y m d < dayNumber y m' d' := by
    intro m d m' d' hm hd hm' hd' hlt
    have := monthLen_eq y m hm.1 (by omega)
    have := daysToMonth_mono y (m + 1) m' (by omega) (by omega) hm'.2
    unfold dayNumber
    omega
  have hmm : m = m' := by
    rcases lt_trichotomy m m' with g | g | g
    · have := key m d m' d' hm hd hm' hd' g; omega
    · exact g
    · have := key m' d' m d hm' hd' hm hd g; omega
  subst hmm
  refine ⟨rfl, rfl, ?_⟩
  unfold dayNumber at h
  omega

theorem tmSeconds_valid (t : Tm) (h : ValidTm t) :
    tmSeconds t = dayNumber t.year t.mon t.day * 86400 + t.hour * 3600 + t.min * 60 + t.sec := by
  have := h.mon
  unfold tmSeconds dayNumber
  rw [show (t.mon - 1) / 12 = 0 by omega, show (t.mon - 1) % 12 + 1 = t.mon by omega, add_zero]

/-- Two dates with the same time value are the same. -/
theorem tmSeconds_inj (s t : Tm) (hs : ValidTm s) (ht : ValidTm t) (h : tmSeconds s = tmSeconds t) :
    s = t := by
  rw [tmSeconds_valid s hs, tmSeconds_valid t ht] at h
  have a1 := hs.hour; have a2 := hs.min; have a3 := hs.sec
  have b1 := ht.hour; have b2 := ht.min; have b3 := ht.sec
  have hd : dayNumber s.year s.mon s.day = dayNumber t.year t.mon t.day := by omega
  obtain ⟨e1, e2, e3⟩ := dayNumber_inj _ _ _ _ _ _ hs.mon hs.day ht.mon ht.day hd
  obtain ⟨y, m, d, hh, mi, sc⟩ := s
  obtain ⟨y', m', d', hh', mi', sc'⟩ := t
  simp only at *
  have : hh = hh' := by omega
  have : mi = mi' := by omega
  have : sc = sc' := by omega
  simp [*]

theorem daysToYear_cycles (a b c e : ℤ) (hb : 0 ≤ b ∧ b ≤ 3) (hc : 0 ≤ c ∧ c ≤ 24)
    (he : 0 ≤ e ∧ e ≤ 3) :
    daysToYear (400 * a + 100 * b + 4 * c + e + 1) = 146097 * a + 36524 * b + 1461 * c + 365 * e := by
  unfold daysToYear
  have h : 400 * a + 100 * b + 4 * c + e + 1 - 1 = 400 * a + 100 * b + 4 * c + e := by ring
  have h4 : (400 * a + 100 * b + 4 * c + e) / 4 = 100 * a + 25 * b + c := by omega
  have h100 : (400 * a + 100 * b + 4 * c + e) / 100 = 4 * a + b := by omega
  have h400 : (400 * a + 100 * b + 4 * c + e) / 400 = a := by omega
  rw [h, h4, h100, h400]
  ring

theorem leapYear_cycles (a b c : ℤ) (hc : 0 ≤ c ∧ c ≤ 24) (h : c = 24 → b = 3) :
    leapYear (400 * a + 100 * b + 4 * c + 3 + 1) = true := by
  rw [leapYear_iff]
  refine ⟨by omega, ?_⟩
  by_cases h24 : c = 24
  · right
    rw [h24, h h24]
    omega
  · left
    omega

theorem yearOfDay_spec (d : ℤ) :
    daysToYear (yearOfDay d) ≤ d ∧ d < daysToYear (yearOfDay d) + 365 + leapDay (yearOfDay d) := by
  obtain ⟨a, ha⟩ : ∃ a, a = d / 146097 := ⟨_, rfl⟩
  obtain ⟨r, hr⟩ : ∃ r, r = d % 146097 := ⟨_, rfl⟩
  obtain ⟨b, hb⟩ : ∃ b, b = min (r / 36524) 3 := ⟨_, rfl⟩
  obtain ⟨r1, hr1⟩ : ∃ r1, r1 = r - 36524 * b := ⟨_, rfl⟩
  obtain ⟨c, hc⟩ : ∃ c, c = r1 / 1461 := ⟨_, rfl⟩
  obtain ⟨r2, hr2⟩ : ∃ r2, r2 = r1 % 1461 := ⟨_, rfl⟩
  obtain ⟨e, he⟩ : ∃ e, e = min (r2 / 365) 3 := ⟨_, rfl⟩
  have hy : yearOfDay d = 400 * a + 100 * b + 4 * c + e + 1 := by
    unfold yearOfDay
    rw [← ha, ← hr, ← hb, ← hr1, ← hc, ← hr2, ← he]
  have hr' : 0 ≤ r ∧ r < 146097 := by omega
  have hb' : 0 ≤ b ∧ b ≤ 3 ∧ 0 ≤ r1 ∧ (b < 3 → r1 < 36524) ∧ r1 ≤ 36524 := by
    rcases min_cases (r / 36524) 3 with ⟨h1, h2⟩ | ⟨h1, h2⟩ <;> omega
  have hc' : 0 ≤ c ∧ c ≤ 24 ∧ 0 ≤ r2 ∧ r2 < 1461 := by omega
  have he' : 0 ≤ e ∧ e ≤ 3 ∧ 0 ≤ r2 - 365 * e ∧ (e < 3 → r2 - 365 * e < 365) ∧ r2 - 365 * e ≤ 365 := by
    rcases min_cases (r2 / 365) 3 with ⟨h1, h2⟩ | ⟨h1, h2⟩ <;> omega
  have hD : daysToYear (yearOfDay d) = 146097 * a + 36524 * b + 1461 * c + 365 * e := by
    rw [hy]
    exact daysToYear_cycles a b c e ⟨hb'.1, hb'.2.1⟩ ⟨hc'.1, hc'.2.1⟩ ⟨he'.1, he'.2.1⟩
  have hd : d = 146097 * a + 36524 * b + 1461 * c + r2 := by omega
  rw [hD]
  have hl := leapDay_bounds (yearOfDay d)
  refine ⟨by omega, ?_⟩
  by_cases hlt : r2 - 365 * e < 365
  · omega
  · have h1 : leapYear (yearOfDay d) = true := by
      have e3 : e = 3 := by clear hd hD hy hr hb; omega
      have r2' : r2 = 1460 := by clear hd hD hy hr hb; omega
      rw [hy, e3]
      exact leapYear_cycles a b c ⟨hc'.1, hc'.2.1⟩ (by clear hd hD hy hr hb; omega)
    have : leapDay (yearOfDay d) = 1 := by unfold leapDay; rw [if_pos h1]
    omega

set_option maxHeartbeats 1000000 in
theorem monthOfDay_spec (y k : ℤ) (h0 : 0 ≤ k) (h1 : k < 365 + leapDay y) :
    1 ≤ monthOfDay y k ∧ monthOfDay y k ≤ 12 ∧ daysToMonth y (monthOfDay y k) ≤ k ∧
      k < daysToMonth y (monthOfDay y k) + monthLen y (monthOfDay y k) := by
  have hl := monthLen_two y
  have b := leapDay_bounds y
  unfold monthOfDay
  have e1 : monthLen y 1 = 31 := by unfold monthLen; norm_num
  have e3 : monthLen y 3 = 31 := by unfold monthLen; norm_num
  have e4 : monthLen y 4 = 30 := by unfold monthLen; norm_num
  have e5 : monthLen y 5 = 31 := by unfold monthLen; norm_num
  have e6 : monthLen y 6 = 30 := by unfold monthLen; norm_num
  have e7 : monthLen y 7 = 31 := by unfold monthLen; norm_num
  have e8 : monthLen y 8 = 31 := by unfold monthLen; norm_num
  have e9 : monthLen y 9 = 30 := by unfold monthLen; norm_num
  have e10 : monthLen y 10 = 31 := by unfold monthLen; norm_num
  have e11 : monthLen y 11 = 30 := by unfold monthLen; norm_num
  have e12 : monthLen y 12 = 31 := by unfold monthLen; norm_num
  have d1 : daysToMonth y 1 = 0 := by unfold daysToMonth; norm_num
  have d2 : daysToMonth y 2 = 31 := by unfold daysToMonth; norm_num
  have d3 : daysToMonth y 3 = 59 + leapDay y := by unfold daysToMonth; norm_num
  have d4 : daysToMonth y 4 = 90 + leapDay y := by unfold daysToMonth; norm_num
  have d5 : daysToMonth y 5 = 120 + leapDay y := by unfold daysToMonth; norm_num
  have d6 : daysToMonth y 6 = 151 + leapDay y := by unfold daysToMonth; norm_num
  have d7 : daysToMonth y 7 = 181 + leapDay y := by unfold daysToMonth; norm_num
  have d8 : daysToMonth y 8 = 212 + leapDay y := by unfold daysToMonth; norm_num
  have d9 : daysToMonth y 9 = 243 + leapDay y := by unfold daysToMonth; norm_num
  have d10 : daysToMonth y 10 = 273 + leapDay y := by unfold daysToMonth; norm_num
  have d11 : daysToMonth y 11 = 304 + leapDay y := by unfold daysToMonth; norm_num
  have d12 : daysToMonth y 12 = 334 + leapDay y := by unfold daysToMonth; norm_num
  by_cases c1 : k < 31
  · rw [if_pos c1, d1, e1]
    clear d1 d2 d3 d4 d5 d6 d7 d8 d9 d10 d11 d12 e1 e3 e4 e5 e6 e7 e8 e9 e10 e11 e12
    omega
  rw [if_neg c1]
  by_cases c2 : k < 59 + leapDay y
  · rw [if_pos c2, d2, hl]
    clear d1 d2 d3 d4 d5 d6 d7 d8 d9 d10 d11 d12 e1 e3 e4 e5 e6 e7 e8 e9 e10 e11 e12
    omega
  rw [if_neg c2]
  by_cases c3 : k < 90 + leapDay y
  · rw [if_pos c3, d3, e3]
    clear d1 d2 d3 d4 d5 d6 d7 d8 d9 d10 d11 d12 e1 e3 e4 e5 e6 e7 e8 e9 e10 e11 e12
    omega
  rw [if_neg c3]
  by_cases c4 : k < 120 + leapDay y
  · rw [if_pos c4, d4, e4]
    clear d1 d2 d3 d4 d5 d6 d7 d8 d9 d10 d11 d12 e1 e3 e4 e5 e6 e7 e8 e9 e10 e11 e12
    omega
  rw [if_neg c4]
  by_cases c5 : k < 151 + leapDay y
  · rw [if_pos c5, d5, e5]
    clear d1 d2 d3 d4 d5 d6 d7 d8 d9 d10 d11 d12 e1 e3 e4 e5 e6 e7 e8 e9 e10 e11 e12
    omega
  rw [if_neg c5]
  by_cases c6 : k < 181 + leapDay y
  · rw [if_pos c6, d6, e6]
    clear d1 d2 d3 d4 d5 d6 d7 d8 d9 d10 d11 d12 e1 e3 e4 e5 e6 e7 e8 e9 e10 e11 e12
    omega
  rw [if_neg c6]
  by_cases c7 : k < 212 + leapDay y
  · rw [if_pos c7, d7, e7]
    clear d1 d2 d3 d4 d5 d6 d7 d8 d9 d10 d11 d12 e1 e3 e4 e5 e6 e7 e8 e9 e10 e11 e12
    omega
  rw [if_neg c7]
  by_cases c8 : k < 243 + leapDay y
  · rw [if_pos c8, d8, e8]
    clear d1 d2 d3 d4 d5 d6 d7 d8 d9 d10 d11 d12 e1 e3 e4 e5 e6 e7 e8 e9 e10 e11 e12
    omega
  rw [if_neg c8]
  by_cases c9 : k < 273 + leapDay y
  · rw [if_pos c9, d9, e9]
    clear d1 d2 d3 d4 d5 d6 d7 d8 d9 d10 d11 d12 e1 e3 e4 e5 e6 e7 e8 e9 e10 e11 e12
    omega
  rw [if_neg c9]
  by_cases c10 : k < 304 + leapDay y
  · rw [if_pos c10, d10, e10]
    clear d1 d2 d3 d4 d5 d6 d7 d8 d9 d10 d11 d12 e1 e3 e4 e5 e6 e7 e8 e9 e10 e11 e12
    omega
  rw [if_neg c10]
  by_cases c11 : k < 334 + leapDay y
  · rw [if_pos c11, d11, e11]
    clear d1 d2 d3 d4 d5 d6 d7 d8 d9 d10 d11 d12 e1 e3 e4 e5 e6 e7 e8 e9 e10 e11 e12
    omega
  rw [if_neg c11]
  rw [d12, e12]
  omega

theorem tmOfSeconds_valid (n : ℤ) : ValidTm (tmOfSeconds n) := by
  have a := yearOfDay_spec (n / 86400)
  have b := monthOfDay_spec (yearOfDay (n / 86400)) (n / 86400 - daysToYear (yearOfDay (n / 86400)))
    (by omega) (by omega)
  constructor
  · exact ⟨b.1, b.2.1⟩
  · unfold tmOfSeconds; simp only; omega
  · unfold tmOfSeconds; simp only; omega
  · unfold tmOfSeconds; simp only; omega
  · unfold tmOfSeconds; simp only; omega

theorem tmSeconds_tmOfSeconds (n : ℤ) : tmSeconds (tmOfSeconds n) = n := by
  rw [tmSeconds_valid _ (tmOfSeconds_valid n)]
  unfold dayNumber tmOfSeconds
  simp only
  omega

/-- `mktime` gives the one valid date with the same time value. -/
theorem mktime_eq (s t : Tm) (ht : ValidTm t) (h : tmSeconds s = tmSeconds t) : mktime s = t :=
  tmSeconds_inj _ _ (tmOfSeconds_valid _) ht (by unfold mktime; rw [tmSeconds_tmOfSeconds, h])

theorem mktime_valid (t : Tm) (h : ValidTm t) : mktime t = t := mktime_eq t t h rfl

end RDy
