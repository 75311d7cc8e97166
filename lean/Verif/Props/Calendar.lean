import Verif.Lemmas.Calendar
import Verif.Lemmas.Output
import Verif.Props.Forcing

/-!
C86: the dates in the names of hourly data files and of time-stamped output files.

Specification: `monthLen` and `ValidTm` (`Verif/Lemmas/Calendar.lean`) are the calendar, `nextHour`
says what comes one hour later, and `nameFor` spells out the name of the file of a date.
-/

namespace RDy

/-- Specification: one hour later on the calendar. -/
def nextHour (t : Tm) : Tm :=
  if t.hour < 23 then { t with hour := t.hour + 1 }
  else if t.day < monthLen t.year t.mon then { t with hour := 0, day := t.day + 1 }
  else if t.mon < 12 then { t with hour := 0, day := 1, mon := t.mon + 1 }
  else { t with hour := 0, day := 1, mon := 1, year := t.year + 1 }

/-- Specification: a number from 0 to 99 in two digits. -/
def two (n : ℤ) : Str := [digitChar (n / 10).toNat, digitChar (n % 10).toNat]

/-- Specification: a number from 0 to 9999 in four digits. -/
def four (n : ℤ) : Str := two (n / 100) ++ two (n % 100)

/-- Specification: the name `dir/YYYY-MM-DD:hh-mm.type.bin`. -/
def nameFor (dir idType : Str) (t : Tm) : Str :=
  dir ++ "/".toList ++ four t.year ++ "-".toList ++ two t.mon ++ "-".toList ++ two t.day ++
    ":".toList ++ two t.hour ++ "-".toList ++ two t.min ++ ".".toList ++ idType ++ ".bin".toList

theorem nextHour_valid (t : Tm) (h : ValidTm t) : ValidTm (nextHour t) := by
  obtain ⟨h1, h2, h3, h4, h5⟩ := h
  unfold nextHour
  by_cases c1 : t.hour < 23
  · rw [if_pos c1]; exact ⟨h1, h2, by simp only; omega, h4, h5⟩
  rw [if_neg c1]
  by_cases c2 : t.day < monthLen t.year t.mon
  · rw [if_pos c2]; exact ⟨h1, by simp only; omega, by simp, h4, h5⟩
  rw [if_neg c2]
  by_cases c3 : t.mon < 12
  · rw [if_pos c3]
    refine ⟨by simp only; omega, ?_, by simp, h4, h5⟩
    have := (monthLen_bounds t.year (t.mon + 1)).1
    simp only
    omega
  · rw [if_neg c3]
    refine ⟨by simp, ?_, by simp, h4, h5⟩
    have := (monthLen_bounds (t.year + 1) 1).1
    simp only
    omega

theorem nextHour_seconds (t : Tm) (h : ValidTm t) : tmSeconds (nextHour t) = tmSeconds t + 3600 := by
  rw [tmSeconds_valid _ h, tmSeconds_valid _ (nextHour_valid t h)]
  obtain ⟨h1, h2, h3, h4, h5⟩ := h
  unfold nextHour
  by_cases c1 : t.hour < 23
  · rw [if_pos c1]; simp only; ring
  rw [if_neg c1]
  have hh : t.hour = 23 := by omega
  by_cases c2 : t.day < monthLen t.year t.mon
  · rw [if_pos c2]; simp only [dayNumber, hh]; ring
  rw [if_neg c2]
  have hd : t.day = monthLen t.year t.mon := by omega
  by_cases c3 : t.mon < 12
  · rw [if_pos c3]
    simp only [dayNumber, hh]
    rw [monthLen_eq t.year t.mon h1.1 (by omega), hd]
    ring
  · rw [if_neg c3]
    have hm : t.mon = 12 := by omega
    simp only [dayNumber, hh]
    rw [hd, hm, daysToYear_succ, daysToMonth_one]
    have := daysToMonth_last t.year
    linarith

theorem tmSeconds_hour (t : Tm) (k : ℤ) :
    tmSeconds { t with hour := t.hour + k } = tmSeconds t + k * 3600 := by
  unfold tmSeconds
  simp only
  ring

/-- C86 (the next hour): for every date, increasing `tm_hour` and normalising with `mktime` gives the
date one hour later on the calendar: at the end of a day the next day, at the end of a month the first
day of the next one (with the leap years of the Gregorian calendar), and at the end of a year the
first day of the next year. -/
theorem C86_next_hour (t : Tm) (h : ValidTm t) :
    mktime { t with hour := t.hour + 1 } = nextHour t :=
  mktime_eq _ _ (nextHour_valid t h) (by rw [tmSeconds_hour, nextHour_seconds t h]; ring)

/-- The last hour of 28 February 2024 and of 31 December 2023. -/
example : mktime { (⟨2024, 2, 28, 23, 0, 0⟩ : Tm) with hour := 24 } = ⟨2024, 2, 29, 0, 0, 0⟩ ∧
    mktime { (⟨2023, 12, 31, 23, 0, 0⟩ : Tm) with hour := 24 } = ⟨2024, 1, 1, 0, 0, 0⟩ := by
  refine ⟨?_, ?_⟩
  · exact (C86_next_hour ⟨2024, 2, 28, 23, 0, 0⟩
      ⟨by norm_num, by norm_num [monthLen], by norm_num, by norm_num, by norm_num⟩).trans
      (by norm_num [nextHour, monthLen])
  · exact (C86_next_hour ⟨2023, 12, 31, 23, 0, 0⟩
      ⟨by norm_num, by norm_num [monthLen], by norm_num, by norm_num, by norm_num⟩).trans
      (by norm_num [nextHour, monthLen])

theorem iter_valid (t : Tm) (h : ValidTm t) (k : ℕ) : ValidTm (nextHour^[k] t) := by
  induction k with
  | zero => exact h
  | succ k ih => rw [Function.iterate_succ_apply']; exact nextHour_valid _ ih

theorem iter_seconds (t : Tm) (h : ValidTm t) (k : ℕ) :
    tmSeconds (nextHour^[k] t) = tmSeconds t + 3600 * k := by
  induction k with
  | zero => simp
  | succ k ih =>
    rw [Function.iterate_succ_apply', nextHour_seconds _ (iter_valid t h k), ih]
    push_cast
    ring

/-- C86 (the sequence of files): starting from a date, the file opened after `k` steps is that of the
date `k` hours after the start date. -/
theorem C86_files (dir idType : Str) (start : Tm) (h : ValidTm start) (k : ℕ) :
    (openNext dir idType)^[k] (openFirst dir idType start) =
      ⟨nextHour^[k] start, k + 1, datasetName dir idType (nextHour^[k] start)⟩ := by
  induction k with
  | zero => simp only [Function.iterate_zero, id, openFirst, datasetFilename, mktime_valid start h]
  | succ k ih =>
    have hv := iter_valid start h k
    have hn := nextHour_valid _ hv
    rw [Function.iterate_succ_apply', ih, Function.iterate_succ_apply']
    simp only [openNext, datasetFilename]
    rw [C86_next_hour _ hv, mktime_valid _ hn]

example : ((openNext "d".toList "int32".toList)^[48]
    (openFirst "d".toList "int32".toList ⟨2024, 2, 28, 6, 0, 0⟩)).date = ⟨2024, 3, 1, 6, 0, 0⟩ := by
  have hv : ValidTm ⟨2024, 2, 28, 6, 0, 0⟩ :=
    ⟨by norm_num, by norm_num [monthLen], by norm_num, by norm_num, by norm_num⟩
  have hw : ValidTm ⟨2024, 3, 1, 6, 0, 0⟩ :=
    ⟨by norm_num, by norm_num [monthLen], by norm_num, by norm_num, by norm_num⟩
  rw [C86_files "d".toList "int32".toList _ hv 48]
  simp only
  have e := iter_seconds _ hv 48
  have v := iter_valid _ hv 48
  generalize nextHour^[48] (⟨2024, 2, 28, 6, 0, 0⟩ : Tm) = t at e v
  exact tmSeconds_inj _ _ v hw (e.trans (by decide +kernel))

theorem two_pad (n : ℤ) (h0 : 0 ≤ n) (h1 : n < 100) : pad 2 n = two n := by
  obtain ⟨m, rfl⟩ := Int.eq_ofNat_of_zero_le h0
  have hm : m < 100 := by exact_mod_cast h1
  have key : ∀ m : Fin 100, pad 2 ((m.1 : ℕ) : ℤ) = two ((m.1 : ℕ) : ℤ) := by decide +kernel
  exact key ⟨m, hm⟩

theorem decimal_four (n : ℕ) (h0 : 1000 ≤ n) (h1 : n < 10000) :
    decimal n = [n / 1000, n / 100 % 10, n / 10 % 10, n % 10] := by
  unfold decimal
  rw [if_neg (by omega)]
  rw [Nat.digits_def' (by norm_num) (by omega), Nat.digits_def' (by norm_num) (by omega),
    Nat.digits_def' (by norm_num) (by omega), Nat.digits_def' (by norm_num) (by omega),
    show n / 10 / 10 / 10 / 10 = 0 by omega, Nat.digits_zero]
  simp only [List.reverse_cons, List.reverse_nil, List.nil_append, List.cons_append, List.cons.injEq,
    and_true]
  omega

theorem four_toNat (y : ℤ) (h0 : 1000 ≤ y) (h1 : y ≤ 9999) :
    (decimal y.toNat).map digitChar = four y := by
  obtain ⟨n, rfl⟩ := Int.eq_ofNat_of_zero_le (by omega : 0 ≤ y)
  rw [show ((n : ℤ)).toNat = n by simp, decimal_four n (by omega) (by omega)]
  unfold four two
  simp only [List.map_cons, List.map_nil, List.cons_append, List.nil_append, List.cons.injEq, and_true]
  refine ⟨congrArg digitChar ?_, congrArg digitChar ?_, congrArg digitChar ?_, congrArg digitChar ?_⟩ <;>
    omega

theorem four_padBlank (y : ℤ) (h0 : 1000 ≤ y) (h1 : y ≤ 9999) : padBlank 4 y = four y := by
  unfold padBlank
  rw [four_toNat y h0 h1, decimal_four y.toNat (by omega) (by omega)]
  rfl

theorem four_pad (y : ℤ) (h0 : 1000 ≤ y) (h1 : y ≤ 9999) : pad 4 y = four y := by
  unfold pad padded
  rw [List.map_append, four_toNat y h0 h1, decimal_four y.toNat (by omega) (by omega)]
  rfl

/-- C86 (the form of the name): for dates from the year 1000 to the year 9999 the name is
`dir/YYYY-MM-DD:hh-mm.type.bin`. -/
theorem C86_name (dir idType : Str) (t : Tm) (h : ValidTm t) (hy : 1000 ≤ t.year ∧ t.year ≤ 9999) :
    datasetName dir idType t = nameFor dir idType t := by
  have hm := monthLen_bounds t.year t.mon
  have h1 := h.mon; have h2 := h.day; have h3 := h.hour; have h4 := h.min
  unfold datasetName nameFor
  rw [four_padBlank _ hy.1 hy.2, two_pad _ (by omega) (by omega), two_pad _ (by omega) (by omega),
    two_pad _ (by omega) (by omega), two_pad _ (by omega) (by omega)]
  rfl

example : datasetName "rain".toList "int32".toList ⟨2017, 8, 26, 5, 0, 0⟩ =
    "rain/2017-08-26:05-00.int32.bin".toList := by
  rw [C86_name _ _ _ ⟨by norm_num, by norm_num [monthLen], by norm_num, by norm_num, by norm_num⟩
    (by norm_num)]
  decide +kernel

/-- C86 (data and time of day): in a run whose forcing is applied at least once an hour (coupling
intervals of at most an hour), starting from any calendar date, the file used at simulation time `t`
is that of the start date plus the number of whole hours in `t`. What is missing: longer coupling
intervals and restarts (`C53_two_hour_violated`, `C53_restart_violated`), summer time
(`C86_summer_time_violated`). -/
theorem C86_covering_partial (dir idType : Str) (start : Tm) (h : ValidTm start) (ts : List ℝ)
    (hstep : List.IsChain (fun a b => a ≤ b ∧ b ≤ a + 3600) (0 :: ts)) :
    nameHistory dir idType (openFirst dir idType start) ts =
      ts.map fun t => datasetName dir idType (nextHour^[hourOf t] start) := by
  have key : ∀ (ts : List ℝ) (k : ℕ),
      nameHistory dir idType ((openNext dir idType)^[k] (openFirst dir idType start)) ts =
        (fileHistory (k + 1) ts).map fun j => datasetName dir idType (nextHour^[j] start) := by
    intro ts
    induction ts with
    | nil => intro k; rfl
    | cons t ts ih =>
      intro k
      have e : stepFile dir idType ((openNext dir idType)^[k] (openFirst dir idType start)) t =
          (openNext dir idType)^[nextFile (k + 1) t - 1] (openFirst dir idType start) := by
        unfold stepFile nextFile
        rw [C86_files dir idType start h k]
        simp only
        by_cases hc : t / 3600 ≥ ((k + 1 : ℕ) : ℝ) * 1
        · rw [if_pos hc, if_pos hc, ← C86_files dir idType start h k]
          rw [← Function.iterate_succ_apply' (openNext dir idType)]
          rfl
        · rw [if_neg hc, if_neg hc, ← C86_files dir idType start h k]
          rfl
      have hp : 1 ≤ nextFile (k + 1) t := by unfold nextFile; split_ifs <;> omega
      unfold nameHistory fileHistory
      rw [e, ih]
      rw [C86_files dir idType start h]
      rw [Nat.sub_add_cancel hp]
      rfl
  have h0 := key ts 0
  rw [Function.iterate_zero, id] at h0
  rw [h0, zero_add, C53_covering_partial ts hstep, List.map_map]
  rfl

/-- Five calls around midnight of 31 December 2023. -/
example : nameHistory "r".toList "int64".toList
    (openFirst "r".toList "int64".toList ⟨2023, 12, 31, 22, 0, 0⟩) [0, 1800, 3600, 7000, 9000] =
    ["r/2023-12-31:22-00.int64.bin".toList, "r/2023-12-31:22-00.int64.bin".toList,
     "r/2023-12-31:23-00.int64.bin".toList, "r/2023-12-31:23-00.int64.bin".toList,
     "r/2024-01-01:00-00.int64.bin".toList] := by
  rw [C86_covering_partial _ _ _
    ⟨by norm_num, by norm_num [monthLen], by norm_num, by norm_num, by norm_num⟩ _ (by
      simp only [List.isChain_cons_cons, List.isChain_singleton]
      norm_num)]
  have e0 : hourOf 0 = 0 := hourOf_eq 0 0 (by norm_num) (by norm_num)
  have e1 : hourOf 1800 = 0 := hourOf_eq 1800 0 (by norm_num) (by norm_num)
  have e2 : hourOf 3600 = 1 := hourOf_eq 3600 1 (by norm_num) (by norm_num)
  have e3 : hourOf 7000 = 1 := hourOf_eq 7000 1 (by norm_num) (by norm_num)
  have e4 : hourOf 9000 = 2 := hourOf_eq 9000 2 (by norm_num) (by norm_num)
  simp only [List.map_cons, List.map_nil, e0, e1, e2, e3, e4]
  decide +kernel

theorem two_inj {a b : ℤ} (ha : 0 ≤ a ∧ a < 100) (hb : 0 ≤ b ∧ b < 100) (h : two a = two b) : a = b := by
  unfold two at h
  simp only [List.cons.injEq, and_true] at h
  have h1 := (digitChar_inj (by omega) (by omega)).1 h.1
  have h2 := (digitChar_inj (by omega) (by omega)).1 h.2
  omega

theorem two_length (a : ℤ) : (two a).length = 2 := rfl

theorem four_length (a : ℤ) : (four a).length = 4 := rfl

theorem four_inj {a b : ℤ} (ha : 0 ≤ a ∧ a < 10000) (hb : 0 ≤ b ∧ b < 10000) (h : four a = four b) :
    a = b := by
  unfold four at h
  obtain ⟨h1, h2⟩ := List.append_inj h rfl
  have := two_inj (by omega) (by omega) h1
  have := two_inj (by omega) (by omega) h2
  omega

/-- C86 (one file for each hour): different dates (to the minute) have different file names. -/
theorem C86_names_distinct (dir idType : Str) (s t : Tm) (hs : ValidTm s) (ht : ValidTm t)
    (ys : 1000 ≤ s.year ∧ s.year ≤ 9999) (yt : 1000 ≤ t.year ∧ t.year ≤ 9999) (he : s.sec = t.sec)
    (h : datasetName dir idType s = datasetName dir idType t) : s = t := by
  rw [C86_name _ _ _ hs ys, C86_name _ _ _ ht yt] at h
  unfold nameFor at h
  simp only [List.append_assoc] at h
  have ms := monthLen_bounds s.year s.mon
  have mt := monthLen_bounds t.year t.mon
  have a1 := hs.mon; have a2 := hs.day; have a3 := hs.hour; have a4 := hs.min
  have b1 := ht.mon; have b2 := ht.day; have b3 := ht.hour; have b4 := ht.min
  have h := List.append_cancel_left (List.append_cancel_left h)
  obtain ⟨e1, h⟩ := List.append_inj h (by rw [four_length, four_length])
  obtain ⟨e2, h⟩ := List.append_inj (List.append_cancel_left h) (by rw [two_length, two_length])
  obtain ⟨e3, h⟩ := List.append_inj (List.append_cancel_left h) (by rw [two_length, two_length])
  obtain ⟨e4, h⟩ := List.append_inj (List.append_cancel_left h) (by rw [two_length, two_length])
  obtain ⟨e5, h⟩ := List.append_inj (List.append_cancel_left h) (by rw [two_length, two_length])
  have f1 := four_inj (by omega) (by omega) e1
  have f2 := two_inj (by omega) (by omega) e2
  have f3 := two_inj (by omega) (by omega) e3
  have f4 := two_inj (by omega) (by omega) e4
  have f5 := two_inj (by omega) (by omega) e5
  cases s
  cases t
  simp_all

example : datasetName "d".toList "int32".toList ⟨2024, 2, 29, 0, 0, 0⟩ ≠
    datasetName "d".toList "int32".toList ⟨2024, 3, 1, 0, 0, 0⟩ := fun h => by
  have := C86_names_distinct "d".toList "int32".toList ⟨2024, 2, 29, 0, 0, 0⟩ ⟨2024, 3, 1, 0, 0, 0⟩
    ⟨by norm_num, by norm_num [monthLen], by norm_num, by norm_num, by norm_num⟩
    ⟨by norm_num, by norm_num [monthLen], by norm_num, by norm_num, by norm_num⟩ (by norm_num)
    (by norm_num) rfl h
  simp at this

/-- C86 (violated): a start date that does not exist is not rejected. A run that is asked to start
with the data of 30 February 2023 uses those of 2 March. -/
theorem C86_invalid_start_violated :
    ¬ ValidTm ⟨2023, 2, 30, 0, 0, 0⟩ ∧
    (openFirst "d".toList "int32".toList ⟨2023, 2, 30, 0, 0, 0⟩).name =
      "d/2023-03-02:00-00.int32.bin".toList := by
  refine ⟨fun h => ?_, by decide +kernel⟩
  have := h.day.2
  norm_num [monthLen] at this

/-- C86 (summer time), the part that holds: in a zone with summer time, as long as it neither begins
nor ends in between, the next file is that of the next hour. -/
theorem C86_summer_time_partial (dst : ℤ → Bool) (t : Tm) (h : ValidTm t) (flag : Bool)
    (hs : dst (tmSeconds t - (if flag then 3600 else 0) + 3600) = flag) :
    nextDateDst dst (t, flag) = (nextHour t, flag) := by
  have e1 : tmSeconds { t with hour := t.hour + 1 } - (if flag then 3600 else 0) =
      tmSeconds t - (if flag then 3600 else 0) + 3600 := by rw [tmSeconds_hour]; ring
  have e2 : mktimeDst dst { t with hour := t.hour + 1 } flag = (nextHour t, flag) := by
    unfold mktimeDst
    rw [e1, hs]
    refine Prod.ext ?_ rfl
    refine tmSeconds_inj _ _ (tmOfSeconds_valid _) (nextHour_valid t h) ?_
    rw [tmSeconds_tmOfSeconds, nextHour_seconds t h]
    ring
  unfold nextDateDst
  simp only [e2]
  unfold mktimeDst
  have e3 : tmSeconds (nextHour t) - (if flag then 3600 else 0) =
      tmSeconds t - (if flag then 3600 else 0) + 3600 := by rw [nextHour_seconds t h]; ring
  rw [e3, hs]
  refine Prod.ext ?_ rfl
  refine tmSeconds_inj _ _ (tmOfSeconds_valid _) (nextHour_valid t h) ?_
  rw [tmSeconds_tmOfSeconds, nextHour_seconds t h]
  ring

/-- Summer time in the United States in 2024: from 10 March, 2:00 standard time, to 3 November, 1:00
standard time. -/
def usDst (n : ℤ) : Bool :=
  decide (tmSeconds ⟨2024, 3, 10, 2, 0, 0⟩ ≤ n) && decide (n < tmSeconds ⟨2024, 11, 3, 1, 0, 0⟩)

example : nextDateDst usDst (⟨2024, 7, 1, 12, 0, 0⟩, true) = (⟨2024, 7, 1, 13, 0, 0⟩, true) := by
  rw [C86_summer_time_partial usDst _ ⟨by norm_num, by norm_num [monthLen], by norm_num, by norm_num,
    by norm_num⟩ true (by decide +kernel)]
  norm_num [nextHour]

/-- C86 (violated): `mktime` works in the local time zone of the machine. Where summer time begins, the
file of an hour is left out (after 1:00 comes 3:00, and the data of the rest of the summer are those of
one hour later), and where it ends a file is used for two hours. -/
theorem C86_summer_time_violated :
    nextDateDst usDst (⟨2024, 3, 10, 1, 0, 0⟩, false) = (⟨2024, 3, 10, 3, 0, 0⟩, true) ∧
    nextHour ⟨2024, 3, 10, 1, 0, 0⟩ = ⟨2024, 3, 10, 2, 0, 0⟩ ∧
    nextDateDst usDst (⟨2024, 11, 3, 1, 0, 0⟩, true) = (⟨2024, 11, 3, 1, 0, 0⟩, false) ∧
    nextHour ⟨2024, 11, 3, 1, 0, 0⟩ = ⟨2024, 11, 3, 2, 0, 0⟩ := by
  refine ⟨by decide +kernel, by norm_num [nextHour], by decide +kernel, by norm_num [nextHour]⟩

/-! ### Time-stamped output files -/

/-- Specification: the name of an output file with a date: `dir/prefix.YYYY-MM-DD.hh.mm.ss.suffix`. -/
def stampFor (dir pre suffix : Str) (y m d hh mm ss : ℤ) : Str :=
  dir ++ "/".toList ++ pre ++ ".".toList ++ four y ++ "-".toList ++ two m ++ "-".toList ++ two d ++
    ".".toList ++ two hh ++ ".".toList ++ two mm ++ ".".toList ++ two ss ++ ".".toList ++ suffix

theorem tmSeconds_sec (t : Tm) (k : ℤ) :
    tmSeconds { t with sec := t.sec + k } = tmSeconds t + k := by
  unfold tmSeconds
  simp only
  ring

/-- The stamped name in terms of the date. -/
theorem stampedName_eq (dir pre suffix : Str) (date : Tm) (sec : ℤ)
    (hy : 2900 ≤ (tmOfSeconds (tmSeconds date + sec)).year ∧
      (tmOfSeconds (tmSeconds date + sec)).year ≤ 11899) :
    stampedName dir pre suffix date sec =
      stampFor dir pre suffix ((tmOfSeconds (tmSeconds date + sec)).year - 1900)
        ((tmOfSeconds (tmSeconds date + sec)).mon - 1) (tmOfSeconds (tmSeconds date + sec)).day
        (tmOfSeconds (tmSeconds date + sec)).hour (tmOfSeconds (tmSeconds date + sec)).min
        (tmOfSeconds (tmSeconds date + sec)).sec := by
  unfold stampedName
  rw [tmSeconds_sec]
  have h := tmOfSeconds_valid (tmSeconds date + sec)
  generalize tmOfSeconds (tmSeconds date + sec) = t at *
  have hm := monthLen_bounds t.year t.mon
  have h1 := h.mon; have h2 := h.day; have h3 := h.hour; have h4 := h.min; have h5 := h.sec
  simp only
  unfold stampFor
  rw [four_pad _ (by omega) (by omega), two_pad _ (by omega) (by omega), two_pad _ (by omega) (by omega),
    two_pad _ (by omega) (by omega), two_pad _ (by omega) (by omega), two_pad _ (by omega) (by omega)]
  rfl

/-- C86 (output on the first day), the part that holds for time stamps: until midnight of the first
day, if the month is not December, the name of the output file shows the configured date and the time
of day. What is missing: all later days (`C86_stamp_violated`) and December
(`C05_stamp_december_violated`). -/
theorem C86_stamp_partial (dir pre suffix : Str) (y m d h mi s k : ℤ)
    (hv : ValidTm ⟨y, m, d, h, mi, s⟩) (hy : 1000 ≤ y ∧ y ≤ 9999) (hm : m < 12)
    (hd : d ≤ monthLen (y + 1900) (m + 1)) (hk : 0 ≤ k)
    (hday : h * 3600 + mi * 60 + s + k < 86400) :
    stampedName dir pre suffix (configDate y m d h mi s) k =
      stampFor dir pre suffix y m d ((h * 3600 + mi * 60 + s + k) / 3600)
        ((h * 3600 + mi * 60 + s + k) % 3600 / 60) ((h * 3600 + mi * 60 + s + k) % 60) := by
  have h1 := hv.mon; have h2 := hv.day; have h3 := hv.hour; have h4 := hv.min; have h5 := hv.sec
  simp only at h1 h2 h3 h4 h5
  have vt : ValidTm ⟨y + 1900, m + 1, d, (h * 3600 + mi * 60 + s + k) / 3600,
      (h * 3600 + mi * 60 + s + k) % 3600 / 60, (h * 3600 + mi * 60 + s + k) % 60⟩ := by
    refine ⟨by simp only; omega, by simp only; omega, by simp only; omega, by simp only; omega,
      by simp only; omega⟩
  have vc : ValidTm (configDate y m d h mi s) := by
    refine ⟨by simp only [configDate]; omega, by simp only [configDate]; omega,
      by simp only [configDate]; omega, by simp only [configDate]; omega, by simp only [configDate]; omega⟩
  have e : tmOfSeconds (tmSeconds (configDate y m d h mi s) + k) =
      ⟨y + 1900, m + 1, d, (h * 3600 + mi * 60 + s + k) / 3600,
      (h * 3600 + mi * 60 + s + k) % 3600 / 60, (h * 3600 + mi * 60 + s + k) % 60⟩ := by
    refine tmSeconds_inj _ _ (tmOfSeconds_valid _) vt ?_
    rw [tmSeconds_tmOfSeconds, tmSeconds_valid _ vt, tmSeconds_valid _ vc]
    simp only [configDate]
    omega
  rw [stampedName_eq _ _ _ _ _ (by rw [e]; simp only; omega), e]
  simp only [add_sub_cancel_right]

example : stampedName "out".toList "run".toList "h5".toList (configDate 2017 8 26 0 0 0) 3661 =
    "out/run.2017-08-26.01.01.01.h5".toList := by
  rw [C86_stamp_partial _ _ _ _ _ _ _ _ _ _
    ⟨by norm_num, by norm_num [monthLen], by norm_num, by norm_num, by norm_num⟩ (by norm_num)
    (by norm_num) (by norm_num [monthLen]) (by norm_num) (by norm_num)]
  decide +kernel

/-- C86 (violated): the calendar used for output files is that of another month and year (the month
after the configured one, 1900 years later). A run that starts on 28 February 2017 writes a file with
the date 29 February 2017 one day later, and one with 31 February three days later. -/
theorem C86_stamp_violated :
    stampedName "out".toList "run".toList "h5".toList (configDate 2017 2 28 0 0 0) 86400 =
      "out/run.2017-02-29.00.00.00.h5".toList ∧
    stampedName "out".toList "run".toList "h5".toList (configDate 2017 2 28 0 0 0) (3 * 86400) =
      "out/run.2017-02-31.00.00.00.h5".toList := by
  constructor <;> decide +kernel

/-- C86 (output files are kept apart): the names of output files whose times differ by a second or more
(after truncation) are different, for all start dates whatsoever, while years have four digits. -/
theorem C86_stamps_distinct (dir pre suffix : Str) (date : Tm) (j k : ℤ)
    (hj : 2900 ≤ (tmOfSeconds (tmSeconds date + j)).year ∧
      (tmOfSeconds (tmSeconds date + j)).year ≤ 11899)
    (hk : 2900 ≤ (tmOfSeconds (tmSeconds date + k)).year ∧
      (tmOfSeconds (tmSeconds date + k)).year ≤ 11899)
    (h : stampedName dir pre suffix date j = stampedName dir pre suffix date k) : j = k := by
  rw [stampedName_eq _ _ _ _ _ hj, stampedName_eq _ _ _ _ _ hk] at h
  have vs := tmOfSeconds_valid (tmSeconds date + j)
  have vt := tmOfSeconds_valid (tmSeconds date + k)
  have ej := tmSeconds_tmOfSeconds (tmSeconds date + j)
  have ek := tmSeconds_tmOfSeconds (tmSeconds date + k)
  generalize tmOfSeconds (tmSeconds date + j) = s at *
  generalize tmOfSeconds (tmSeconds date + k) = t at *
  have ms := monthLen_bounds s.year s.mon
  have mt := monthLen_bounds t.year t.mon
  have a1 := vs.mon; have a2 := vs.day; have a3 := vs.hour; have a4 := vs.min; have a5 := vs.sec
  have b1 := vt.mon; have b2 := vt.day; have b3 := vt.hour; have b4 := vt.min; have b5 := vt.sec
  unfold stampFor at h
  simp only [List.append_assoc] at h
  have h := List.append_cancel_left (List.append_cancel_left (List.append_cancel_left
    (List.append_cancel_left h)))
  obtain ⟨e1, h⟩ := List.append_inj h (by rw [four_length, four_length])
  obtain ⟨e2, h⟩ := List.append_inj (List.append_cancel_left h) (by rw [two_length, two_length])
  obtain ⟨e3, h⟩ := List.append_inj (List.append_cancel_left h) (by rw [two_length, two_length])
  obtain ⟨e4, h⟩ := List.append_inj (List.append_cancel_left h) (by rw [two_length, two_length])
  obtain ⟨e5, h⟩ := List.append_inj (List.append_cancel_left h) (by rw [two_length, two_length])
  obtain ⟨e6, h⟩ := List.append_inj (List.append_cancel_left h) (by rw [two_length, two_length])
  have f1 := four_inj (by omega) (by omega) e1
  have f2 := two_inj (by omega) (by omega) e2
  have f3 := two_inj (by omega) (by omega) e3
  have f4 := two_inj (by omega) (by omega) e4
  have f5 := two_inj (by omega) (by omega) e5
  have f6 := two_inj (by omega) (by omega) e6
  have : s = t := by
    cases s
    cases t
    simp only [Tm.mk.injEq]
    simp only at f1 f2 f3 f4 f5 f6
    omega
  rw [this] at ej
  omega

example : stampedName "o".toList "p".toList "h5".toList (configDate 2017 8 26 0 0 0) 0 ≠
    stampedName "o".toList "p".toList "h5".toList (configDate 2017 8 26 0 0 0) 86400 := fun h => by
  have := C86_stamps_distinct _ _ _ _ _ _ (by decide +kernel) (by decide +kernel) h
  omega

end RDy
