import Verif.Lemmas.Output
import Mathlib.Tactic.NormNum

/-!
Properties C05 (file names), C06 (batching), C07 (directories), C30 (checkpoint file names).
-/

namespace RDy

/-! ### C05 -/

/-- C05: with the same directory, prefix, padding maximum and suffix, two indices give the same file
name only if they are equal – for *all* indices, also beyond the padding maximum. -/
theorem C05_indexed_injective (dir pre suf : Str) (mx i j : ℕ) (f : Str)
    (hi : indexedFilename dir pre i mx suf = some f)
    (hj : indexedFilename dir pre j mx suf = some f) : i = j := by
  unfold indexedFilename at hi hj
  cases hw : numDigits mx with
  | none => rw [hw] at hi; simp at hi
  | some w =>
    rw [hw] at hi hj
    simp only [Option.map_some, Option.some.injEq] at hi hj
    rw [← hj] at hi
    have h1 := List.append_cancel_right (List.append_cancel_right hi)
    have h2 := List.append_cancel_left h1
    have h3 := map_digitChar_inj _ _ (padded_lt w i) (padded_lt w j) h2
    rw [← beVal_padded w i, h3, beVal_padded]

example : ∃ f g, indexedFilename ['o'] ['p'] 3 12 ['h', '5'] = some f ∧
    indexedFilename ['o'] ['p'] 11 12 ['h', '5'] = some g ∧ f ≠ g := by
  refine ⟨_, _, rfl, rfl, ?_⟩
  intro h
  exact absurd (C05_indexed_injective ['o'] ['p'] ['h', '5'] 12 3 11 _ rfl (h ▸ rfl)) (by norm_num)

/-- C05: a name is produced exactly when the padding maximum is positive (otherwise the C code
converts `-inf` to an integer). -/
theorem C05_indexed_defined (dir pre suf : Str) (mx i : ℕ) :
    (indexedFilename dir pre i mx suf).isSome ↔ 0 < mx := by
  unfold indexedFilename numDigits
  split_ifs with h
  · subst h; simp
  · simp; omega

/-- C05: all names for indices up to the maximum have the same length. -/
theorem C05_indexed_same_length (dir pre suf : Str) (mx i j : ℕ) (f g : Str)
    (hi : i ≤ mx) (hj : j ≤ mx)
    (hf : indexedFilename dir pre i mx suf = some f)
    (hg : indexedFilename dir pre j mx suf = some g) : f.length = g.length := by
  unfold indexedFilename at hf hg
  unfold numDigits at hf hg
  split_ifs at hf hg with h
  · simp at hf
  · simp only [Option.map_some, Option.some.injEq] at hf hg
    subst hf hg
    have h1 := Nat.log_mono_right (b := 10) hi
    have h2 := Nat.log_mono_right (b := 10) hj
    simp only [List.length_append, List.length_map, padded_length]
    omega

/-- C05: for indices up to the maximum, the lexicographic order of the names is the numeric order
of the indices. -/
theorem C05_indexed_order (dir pre suf : Str) (mx i j : ℕ) (f g : Str)
    (hi : i ≤ mx) (hj : j ≤ mx)
    (hf : indexedFilename dir pre i mx suf = some f)
    (hg : indexedFilename dir pre j mx suf = some g) : f < g ↔ i < j := by
  unfold indexedFilename at hf hg
  unfold numDigits at hf hg
  split_ifs at hf hg with h
  · simp at hf
  · simp only [Option.map_some, Option.some.injEq] at hf hg
    subst hf hg
    have h1 := Nat.log_mono_right (b := 10) hi
    have h2 := Nat.log_mono_right (b := 10) hj
    have hl : (padded (Nat.log 10 mx + 1) i).length = (padded (Nat.log 10 mx + 1) j).length := by
      simp only [padded_length]; omega
    have := lex_digits_iff _ _ hl (padded_lt _ i) (padded_lt _ j) (['.'] ++ suf)
    simp only [beVal_padded] at this
    rw [← this]
    simp only [List.append_assoc]
    rw [append_left_lt, append_left_lt, append_left_lt, append_left_lt]

example : indexedFilename "out".toList "run".toList 7 120 "h5".toList
    = some "out/run-007.h5".toList := by decide +kernel

/-- C05: the lexicographic order is lost once an index exceeds the padding maximum (which can happen
with adaptive stepping, where the step count is not limited by `stop_n`): step 10 sorts before
step 9 when `stop_n = 9`. -/
theorem C05_order_beyond_max_violated :
    ∃ f g, indexedFilename [] [] 10 9 [] = some f ∧ indexedFilename [] [] 9 9 [] = some g ∧ f < g :=
  ⟨"/-10.".toList, "/-9.".toList, by decide +kernel, by decide +kernel, by decide +kernel⟩

/-- C05 (dated names): outputs whose times differ in their integer part get different stamps. -/
theorem C05_stamp_distinct_partial (s t : ℚ) (h : s + 1 ≤ t) : stampSeconds s < stampSeconds t := by
  unfold stampSeconds
  have h1 : ((⌊s⌋ + 1 : ℤ) : ℚ) ≤ t := by push_cast; have := Int.floor_le s; linarith
  have := Int.le_floor.2 h1
  omega

example : ((1 : ℚ) / 2) + 1 ≤ 3 / 2 := by norm_num

/-- C05 refuted for dated names: two XDMF outputs a quarter of a configured time unit apart (e.g. 15
minutes, with `unit: hours`) carry the same stamp, hence the same file name: the time in configured
units is added to the start date as *seconds*. -/
theorem C05_stamp_collision_violated : ∃ s t : ℚ, s < t ∧ stampSeconds s = stampSeconds t :=
  ⟨1 / 4, 1 / 2, by norm_num, by
    unfold stampSeconds
    rw [Int.floor_eq_zero_iff.2 (by constructor <;> norm_num),
      Int.floor_eq_zero_iff.2 (by constructor <;> norm_num)]⟩

/-- C05 (dated names): the calendar month shown in the name of the output at the start date is the
configured one for January–November. -/
theorem C05_stamp_month_partial (y m : ℕ) (_h1 : 1 ≤ m) (h2 : m ≤ 11) :
    printedYearMonth y m = (y, m) := by
  unfold printedYearMonth normalizeMonth
  rw [Nat.div_eq_of_lt (by omega), Nat.mod_eq_of_lt (by omega), Nat.add_zero]

example : printedYearMonth 2017 8 = (2017, 8) := by decide

/-- C05 refuted for December: a simulation starting in December of year `y` names its first file
`(y+1)-00`. -/
theorem C05_stamp_december_violated (y : ℕ) : printedYearMonth y 12 = (y + 1, 0) := rfl

/-! ### C06 -/

/-- Specification: the datasets a file should hold after outputs `0, 1, …, n-1` (output number `k`
is at step `k·interval`), `b` datasets per file. -/
def datasetsOf (interval b n f : ℕ) : List ℕ :=
  ((List.range n).filter fun k => decide (k / b = f)).map (· * interval)

theorem writeStep_multiple (c : OutCfg) (fs : Files) (k : ℕ) (hi : 0 < c.outputInterval)
    (hb : 1 < c.batchSize) :
    writeStep c fs (k * c.outputInterval)
      = some (fs.put (k / c.batchSize)
          (if k % c.batchSize = 0 then .write else .append) (k * c.outputInterval)) := by
  unfold writeStep fileIndex fileMode cdiv cmod
  rw [if_neg (by omega), if_neg (by omega), Nat.mul_div_cancel _ hi]
  simp only [Option.bind_some]
  rw [if_neg (by omega), if_neg (by omega)]
  rfl

theorem writeSteps_append (c : OutCfg) (fs : Files) (a b : List ℕ) :
    writeSteps c fs (a ++ b) = (writeSteps c fs a).bind fun fs' => writeSteps c fs' b := by
  induction a generalizing fs with
  | nil => rfl
  | cons s ss ih =>
    simp only [List.cons_append, writeSteps]
    cases writeStep c fs s with
    | none => rfl
    | some fs' => simp [ih]

/-- C06: writing outputs `0 … n-1` at multiples of the step interval with batching puts output `k`
into file `k / batch_size`, in order, with no dataset lost, duplicated or overwritten, starting from
*any* earlier contents of the directory for the files concerned. -/
theorem C06_batching (c : OutCfg) (fs : Files) (n : ℕ) (hi : 0 < c.outputInterval)
    (hb : 1 < c.batchSize) :
    ∃ fs', writeSteps c fs ((List.range n).map (· * c.outputInterval)) = some fs' ∧
      ∀ f, fs' f = if f * c.batchSize < n then datasetsOf c.outputInterval c.batchSize n f
                   else fs f := by
  induction n with
  | zero => exact ⟨fs, rfl, by simp⟩
  | succ n ih =>
    obtain ⟨fs', h1, h2⟩ := ih
    rw [List.range_succ, List.map_append, writeSteps_append, h1]
    simp only [Option.bind_some, List.map_cons, List.map_nil, writeSteps,
      writeStep_multiple c fs' n hi hb]
    refine ⟨_, rfl, ?_⟩
    intro f
    have hbp : 0 < c.batchSize := by omega
    have hds : datasetsOf c.outputInterval c.batchSize (n + 1) f
        = datasetsOf c.outputInterval c.batchSize n f
          ++ (if n / c.batchSize = f then [n * c.outputInterval] else []) := by
      unfold datasetsOf
      rw [List.range_succ, List.filter_append, List.map_append]
      congr 1
      by_cases h : n / c.batchSize = f <;> simp [h]
    unfold Files.put
    by_cases hf : f = n / c.batchSize
    · subst hf
      have hle : n / c.batchSize * c.batchSize ≤ n := Nat.div_mul_le_self _ _
      have hlt1 : n / c.batchSize * c.batchSize < n + 1 := by omega
      rw [if_pos rfl, if_pos hlt1, hds, if_pos rfl]
      by_cases hm : n % c.batchSize = 0
      · rw [if_pos hm]
        have hn : n / c.batchSize * c.batchSize = n := by
          have := Nat.div_add_mod n c.batchSize; rw [hm, Nat.mul_comm] at this; omega
        have : datasetsOf c.outputInterval c.batchSize n (n / c.batchSize) = [] := by
          unfold datasetsOf
          rw [List.map_eq_nil_iff, List.filter_eq_nil_iff]
          intro k hk hk2
          rw [List.mem_range] at hk
          simp only [decide_eq_true_eq] at hk2
          have := Nat.div_mul_le_self k c.batchSize
          rw [hk2, hn] at this; omega
        simp [this]
      · have hlt : n / c.batchSize * c.batchSize < n := by
          have := Nat.div_add_mod n c.batchSize
          rw [Nat.mul_comm] at this; omega
        simp only [if_neg hm, h2, if_pos hlt]
    · have hf' : ¬ (n / c.batchSize = f) := fun h => hf h.symm
      rw [if_neg hf, hds, if_neg hf', List.append_nil, h2]
      have : f * c.batchSize < n + 1 ↔ f * c.batchSize < n := by
        constructor
        · intro h
          rcases Nat.lt_succ_iff_lt_or_eq.1 h with h | h
          · exact h
          · exfalso; apply hf; rw [← h, Nat.mul_div_cancel _ hbp]
        · intro h; omega
      simp only [this]

example : ∃ fs', writeSteps ⟨5, 3, 100⟩ (fun _ => []) ((List.range 7).map (· * 5)) = some fs' ∧
    fs' 0 = [0, 5, 10] ∧ fs' 1 = [15, 20, 25] ∧ fs' 2 = [30] ∧ fs' 3 = [] := by
  refine ⟨_, rfl, ?_⟩
  decide +kernel

/-- C06: no file holds more than `batch_size` datasets. -/
theorem C06_batch_size_bound (interval b n f : ℕ) (hb : 0 < b) :
    (datasetsOf interval b n f).length ≤ b := by
  unfold datasetsOf
  rw [List.length_map]
  have hsub : (List.range n).filter (fun k => decide (k / b = f))
      ⊆ (List.range b).map (· + f * b) := by
    intro k hk
    rw [List.mem_filter, List.mem_range, decide_eq_true_eq] at hk
    rw [List.mem_map]
    refine ⟨k - f * b, ?_, ?_⟩
    · rw [List.mem_range]
      have h1 := Nat.div_add_mod k b
      have h2 := Nat.mod_lt k hb
      rw [hk.2, Nat.mul_comm] at h1
      omega
    · have h1 := Nat.div_mul_le_self k b
      rw [hk.2] at h1
      omega
  have hnd : ((List.range n).filter (fun k => decide (k / b = f))).Nodup :=
    List.Nodup.filter _ List.nodup_range
  have := (List.subperm_of_subset hnd hsub).length_le
  simpa using this

example : (datasetsOf 2 3 20 1).length ≤ 3 := C06_batch_size_bound 2 3 20 1 (by norm_num)

/-- C06: with one dataset per file (`batch_size = 1`) every requested step – multiple of the interval
or not – goes to its own file, provided a step interval is given. -/
theorem C06_unbatched (c : OutCfg) (fs : Files) (steps : List ℕ) (hi : 0 < c.outputInterval)
    (hb : c.batchSize = 1) :
    ∃ fs', writeSteps c fs steps = some fs' ∧
      ∀ f, fs' f = if f ∈ steps then [f] else fs f := by
  induction steps generalizing fs with
  | nil => exact ⟨fs, rfl, by simp⟩
  | cons s ss ih =>
    have hw : writeStep c fs s = some (fs.put s .write s) := by
      unfold writeStep fileIndex fileMode cdiv cmod
      simp [hb, Nat.mod_one, Nat.pos_iff_ne_zero.1 hi]
    obtain ⟨fs', h1, h2⟩ := ih (fs.put s .write s)
    refine ⟨fs', by simp only [writeSteps, hw, Option.bind_some, h1], ?_⟩
    intro f
    rw [h2]
    unfold Files.put
    by_cases hf : f = s
    · subst hf; simp
    · simp [hf]

example : ∃ fs', writeSteps ⟨5, 1, 100⟩ (fun _ => []) [0, 5, 7] = some fs' ∧ fs' 7 = [7] ∧
    fs' 5 = [5] := ⟨_, rfl, by decide, by decide⟩

/-- C06 refuted (division by zero): a configuration accepted by validation that requests XDMF output
by `time_interval` only divides by zero at its first output, whatever the batch size. -/
theorem C06_time_interval_only_violated (b stopN step ti : ℕ) (hb : 0 < b) (ht : 0 < ti) (fs : Files) :
    acceptedOut ⟨0, b, stopN⟩ ti ∧ writeStep ⟨0, b, stopN⟩ fs step = none := by
  refine ⟨⟨fun h => by simp at h; omega, hb⟩, ?_⟩
  unfold writeStep fileMode cdiv
  simp

/-- C06 refuted (log monitor): likewise for the log monitor of binary/CGNS output. -/
theorem C06_log_monitor_violated (b stopN step ti : ℕ) (hb : 0 < b) (ht : 0 < ti) :
    acceptedOut ⟨0, b, stopN⟩ ti ∧ logMonitor ⟨0, b, stopN⟩ step = none := by
  refine ⟨⟨fun h => by simp at h; omega, hb⟩, rfl⟩

/-- C06 refuted (data loss): with a step interval of 2, batches of 2 and an additional output at
step 5 requested by a time interval, the dataset of step 4 is overwritten. -/
theorem C06_mixed_intervals_overwrite_violated :
    ∃ fs', writeSteps ⟨2, 2, 100⟩ (fun _ => []) [0, 2, 4, 5] = some fs' ∧ ∀ f, 4 ∉ fs' f := by
  refine ⟨_, rfl, ?_⟩
  intro f
  unfold Files.put
  by_cases h1 : f = 1
  · subst h1; simp +decide
  · by_cases h0 : f = 0
    · subst h0; simp +decide
    · simp +decide [h0, h1]

/-- C06: every accepted configuration with a positive step interval is free of division by zero. -/
theorem C06_no_division_by_zero_partial (c : OutCfg) (fs : Files) (step : ℕ)
    (hi : 0 < c.outputInterval) (hb : 0 < c.batchSize) : (writeStep c fs step).isSome := by
  unfold writeStep fileIndex fileMode cdiv cmod
  have h1 : c.outputInterval ≠ 0 := by omega
  have h2 : c.batchSize ≠ 0 := by omega
  simp only [h1, h2, if_false, Option.bind_some]
  split_ifs <;> simp

example (fs : Files) : (writeStep ⟨5, 2, 100⟩ fs 10).isSome :=
  C06_no_division_by_zero_partial _ fs 10 (by norm_num) (by norm_num)

/-- C06: the file index never exceeds the maximum used for padding the file names, for steps up to
`stop_n`. -/
theorem C06_index_within_max (c : OutCfg) (step i m : ℕ) (h : step ≤ c.stopN)
    (hi : fileIndex c step = some i) (hm : maxIndex c = some m) : i ≤ m := by
  unfold fileIndex cdiv at hi
  unfold maxIndex cdiv at hm
  by_cases h1 : c.batchSize = 1
  · simp only [h1, if_true, Option.some.injEq] at hi hm; omega
  · by_cases h2 : c.outputInterval = 0
    · simp [h1, h2] at hi
    · by_cases h3 : c.batchSize = 0
      · simp [h2, h3] at hi
      · simp only [h1, h2, h3, if_false, Option.bind_some, Option.some.injEq,
          Option.map_some] at hi hm
        have h4 := Nat.div_le_div_right (c := c.batchSize)
          (Nat.div_le_div_right (c := c.outputInterval) h)
        split_ifs at hm with h5 <;> omega

example : fileIndex ⟨5, 3, 100⟩ 40 = some 2 ∧ maxIndex ⟨5, 3, 100⟩ = some 6 := by decide

/-! ### C07 -/

/-- C07: the first simulation of a process gets its own directory, at every call. -/
theorem C07_single_simulation_partial (compute : DirCfg → Str) (c : DirCfg) (n : ℕ)
    (hne : compute c ≠ []) :
    getDirs compute [] (List.replicate n c) = List.replicate n (compute c) := by
  have aux : ∀ n, getDirs compute (compute c) (List.replicate n c)
      = List.replicate n (compute c) := by
    intro n
    induction n with
    | zero => rfl
    | succ n ih =>
      simp only [List.replicate_succ, getDirs, getDir]
      rw [if_neg hne, ih]
  cases n with
  | zero => rfl
  | succ n =>
    simp only [List.replicate_succ, getDirs, getDir, if_true]
    rw [aux]

example : getDirs outputDirOf [] (List.replicate 2 ⟨"out".toList, 4, "m1".toList⟩)
    = List.replicate 2 "out/m1".toList := by decide

/-- C07: exact behaviour: every caller in the process gets the directory of the first caller. -/
theorem C07_all_callers_get_first (compute : DirCfg → Str) (c : DirCfg) (cs : List DirCfg)
    (hne : compute c ≠ []) :
    getDirs compute [] (c :: cs) = List.replicate (cs.length + 1) (compute c) := by
  have aux : ∀ cs, getDirs compute (compute c) cs = List.replicate cs.length (compute c) := by
    intro cs
    induction cs with
    | nil => rfl
    | cons d ds ih =>
      simp only [getDirs, getDir, List.length_cons, List.replicate_succ]
      rw [if_neg hne, ih]
  simp only [getDirs, getDir, List.replicate_succ, if_true]
  rw [aux]

/-- C07 refuted: a second simulation with a different output directory in the same process is given
the first one's directory. -/
theorem C07_second_simulation_violated (c d : DirCfg) (hne : outputDirOf c ≠ [])
    (hdiff : outputDirOf c ≠ outputDirOf d) :
    ∃ x, (getDirs outputDirOf [] [c, d])[1]? = some x ∧ x ≠ outputDirOf d := by
  rw [C07_all_callers_get_first _ _ _ hne]
  exact ⟨outputDirOf c, rfl, hdiff⟩

example : outputDirOf ⟨"a".toList, 0, []⟩ ≠ [] ∧
    outputDirOf ⟨"a".toList, 0, []⟩ ≠ outputDirOf ⟨"b".toList, 0, []⟩ := by decide

/-- C07 refuted for checkpoints: two ensemble members simulated one after the other in one process
share the first one's checkpoint directory. -/
theorem C07_checkpoint_members_violated (c d : DirCfg) (h1 : 1 < c.ensembleSize)
    (h2 : 1 < d.ensembleSize) (hn : c.member ≠ d.member) :
    ∃ x, (getDirs checkpointDirOf [] [c, d])[1]? = some x ∧ x ≠ checkpointDirOf d := by
  have hne : checkpointDirOf c ≠ [] := by
    unfold checkpointDirOf; rw [if_pos h1]
    intro h; have := congrArg List.length h; simp at this
  rw [C07_all_callers_get_first _ _ _ hne]
  refine ⟨checkpointDirOf c, rfl, ?_⟩
  unfold checkpointDirOf
  rw [if_pos h1, if_pos h2]
  intro h
  exact hn (List.append_cancel_left h)

example : (1 : ℕ) < (⟨['o'], 2, ['a']⟩ : DirCfg).ensembleSize ∧
    (⟨['o'], 2, ['a']⟩ : DirCfg).member ≠ (⟨['o'], 2, ['b']⟩ : DirCfg).member := by decide

/-- C07: two ensemble members with different names have different directories (so that, were the
directory not cached, their files could not collide). -/
theorem C07_member_dirs_distinct (c d : DirCfg) (h1 : 1 < c.ensembleSize)
    (h2 : 1 < d.ensembleSize) (hdir : c.directory = d.directory) (hn : c.member ≠ d.member) :
    outputDirOf c ≠ outputDirOf d ∧ checkpointDirOf c ≠ checkpointDirOf d := by
  unfold outputDirOf checkpointDirOf
  rw [if_pos h1, if_pos h2, if_pos h1, if_pos h2, hdir]
  exact ⟨fun h => hn (List.append_cancel_left h), fun h => hn (List.append_cancel_left h)⟩

example : outputDirOf ⟨"a".toList, 2, "x".toList⟩ ≠ outputDirOf ⟨"a".toList, 2, "y".toList⟩ :=
  (C07_member_dirs_distinct ⟨"a".toList, 2, "x".toList⟩ ⟨"a".toList, 2, "y".toList⟩
    (by decide) (by decide) rfl (by decide)).1

/-! ### C30 (names) -/

/-- C30: checkpoints written at different steps have different file names. -/
theorem C30_checkpoint_names_injective (dir pre ext : Str) (mx i j : ℕ) (f : Str)
    (hi : checkpointFilename dir pre i mx ext = some f)
    (hj : checkpointFilename dir pre j mx ext = some f) : i = j := by
  unfold checkpointFilename at hi hj
  cases hw : numDigits mx with
  | none => rw [hw] at hi; simp at hi
  | some w =>
    rw [hw] at hi hj
    simp only [Option.map_some, Option.some.injEq] at hi hj
    rw [← hj] at hi
    have h2 := List.append_cancel_left (List.append_cancel_right hi)
    have h3 := map_digitChar_inj _ _ (padded_lt w i) (padded_lt w j) h2
    rw [← beVal_padded w i, h3, beVal_padded]

example : checkpointFilename "checkpoints".toList "ex".toList 20 100 ".h5".toList
    = some "checkpoints/ex.rdycore.r.020.h5".toList := by decide +kernel

end RDy
