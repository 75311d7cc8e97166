import Verif.Model.AmrDriver
import Verif.Props.Calendar
import Verif.Props.Amr
import Verif.Props.AmrRun

/-!
# C98: the program for runs with refinement refines where its data say

Specification: `nextMinute` is the calendar one minute later, `Ancestor` (`Verif/Props/Amr.lean`) the
cell of the base mesh a cell descends from, `GoodFile` says that a file can be used, and `AdaptOk`
is the contract of `DMAdaptLabel`.
-/

noncomputable section

namespace RDy

/-! ## Options -/

/-- Specification: the complete set of options: five numbers and a directory. -/
def CompleteOptions (date : Option (List ℤ)) (dir : Option Str) (d : Str) (t : Tm) : Prop :=
  dir = some d ∧ ∃ rest, date = some ([t.year, t.mon, t.day, t.hour, t.min] ++ rest) ∧ t.sec = 0

/-- C98 (options), the part that holds: refinement data are used exactly if the start date is given
with at least five values and the directory is given, and then they start at that date in that
directory; a date without a directory is refused; without a date no data are used. -/
theorem C98_options_partial (date : Option (List ℤ)) (dir : Option Str) :
    (∀ d t, parseRefinementData date dir = .ok (some (d, t)) ↔ CompleteOptions date dir d t) ∧
    (parseRefinementData date dir = .error ↔ date ≠ none ∧ dir = none) ∧
    (parseRefinementData date dir = .ok none ↔ date = none) := by
  unfold parseRefinementData CompleteOptions
  cases date with
  | none => simp
  | some ds =>
    cases dir with
    | none => simp
    | some d =>
      match ds with
      | [] => simp
      | [_] => simp
      | [_, _] => simp
      | [_, _, _] => simp
      | [_, _, _, _] => simp
      | y :: m :: dd :: h :: mi :: rest =>
        refine ⟨fun d' t => ⟨fun e => ?_, ?_⟩, by simp, by simp⟩
        · simp only [Res.ok.injEq, Option.some.injEq, Prod.mk.injEq] at e
          obtain ⟨rfl, rfl⟩ := e
          exact ⟨rfl, rest, rfl, rfl⟩
        · rintro ⟨e, rest', e', e''⟩
          simp only [Option.some.injEq, List.cons_append, List.nil_append, List.cons.injEq] at e e'
          obtain ⟨rfl, rfl, rfl, rfl, rfl, -⟩ := e'
          rw [e, ← e'']

example : parseRefinementData (some [2017, 8, 26, 5, 0]) (some "d".toList) =
    .ok (some ("d".toList, ⟨2017, 8, 26, 5, 0, 0⟩)) := by
  refine ((C98_options_partial _ _).1 _ _).2 ⟨rfl, [], rfl, rfl⟩

/-- C98 (options), what fails: with fewer than five values of `-refine_data_start_date` the program
goes on with entries of its array that were never set; and a directory without a date is not noticed:
the run refines a fixed box instead of what the data say. -/
theorem C98_options_violated (d : Str) (ds : List ℤ) (h : ds.length < 5) :
    parseRefinementData (some ds) (some d) = .ub ∧
    parseRefinementData none (some d) = .ok none := by
  refine ⟨?_, rfl⟩
  match ds, h with
  | [], _ => rfl
  | [_], _ => rfl
  | [_, _], _ => rfl
  | [_, _, _], _ => rfl
  | [_, _, _, _], _ => rfl
  | _ :: _ :: _ :: _ :: _ :: _, h => simp only [List.length_cons] at h; omega

example : ([2017, 8, 26] : List ℤ).length < 5 := by simp

/-! ## The dates -/

/-- Specification: one minute later on the calendar. -/
def nextMinute (t : Tm) : Tm :=
  if t.min < 59 then { t with min := t.min + 1 } else nextHour { t with min := 0 }

theorem nextMinute_valid (t : Tm) (h : ValidTm t) : ValidTm (nextMinute t) := by
  unfold nextMinute
  by_cases c : t.min < 59
  · rw [if_pos c]
    obtain ⟨h1, h2, h3, h4, h5⟩ := h
    exact ⟨h1, h2, h3, by simp only; omega, h5⟩
  · rw [if_neg c]
    apply nextHour_valid
    obtain ⟨h1, h2, h3, h4, h5⟩ := h
    exact ⟨h1, h2, h3, by simp, h5⟩

theorem tmSeconds_min (t : Tm) (k : ℤ) :
    tmSeconds { t with min := k } = tmSeconds t + (k - t.min) * 60 := by
  unfold tmSeconds
  simp only
  ring

theorem nextMinute_seconds (t : Tm) (h : ValidTm t) :
    tmSeconds (nextMinute t) = tmSeconds t + 60 := by
  unfold nextMinute
  by_cases c : t.min < 59
  · rw [if_pos c, tmSeconds_min]; ring
  · rw [if_neg c]
    obtain ⟨h1, h2, h3, h4, h5⟩ := h
    have hv : ValidTm { t with min := 0 } := ⟨h1, h2, h3, by simp, h5⟩
    rw [nextHour_seconds _ hv, tmSeconds_min]
    have : t.min = 59 := by omega
    rw [this]; ring

theorem nextMinuteDate_eq (t : Tm) (h : ValidTm t) : nextMinuteDate t = nextMinute t :=
  mktime_eq _ _ (nextMinute_valid t h) (by rw [tmSeconds_min, nextMinute_seconds t h]; ring)

theorem iterMinute_valid (t : Tm) (h : ValidTm t) (k : ℕ) : ValidTm (nextMinute^[k] t) := by
  induction k with
  | zero => exact h
  | succ k ih => rw [Function.iterate_succ_apply']; exact nextMinute_valid _ ih

theorem iterMinute_seconds (t : Tm) (h : ValidTm t) (k : ℕ) :
    tmSeconds (nextMinute^[k] t) = tmSeconds t + 60 * k := by
  induction k with
  | zero => simp
  | succ k ih =>
    rw [Function.iterate_succ_apply', nextMinute_seconds _ (iterMinute_valid t h k), ih]
    push_cast
    ring

/-! ## Marks -/

theorem refineMarked_ok (adapt : Adapter) (s : AmrProg) (marks : List Bool)
    (h : marks.length = s.amr.nCur) :
    ∃ lab, s.refineMarked adapt marks =
        .ok { s with
          amr := s.amr.refine 1 (adapt s.amr.nCur s.mesh lab).1
          mesh := (adapt s.amr.nCur s.mesh lab).2
          refs := s.refs ++ [(adapt s.amr.nCur s.mesh lab).1]
          marked := s.marked ++ [(s.mesh, lab)] } ∧
      ∀ f, f ∈ lab ↔ marks[f]? = some true := by
  obtain ⟨m, lab, e1, e2, e3⟩ := C94_marked true s.amr.nCur s.amr.nCur (fun _ => true) id s.mesh.cent
    marks h
  refine ⟨lab, ?_, fun f => ?_⟩
  · unfold AmrProg.refineMarked
    rw [e1]
    dsimp only
    rw [e2]
  · rw [e3]
    simp

theorem markByData_get (n : ℕ) (area v : ℕ → ℝ) (f : ℕ) :
    (markByData n area v)[f]? = some true ↔ f < n ∧ 0 < v f ∧ 1 / 8 < area f := by
  unfold markByData
  rw [List.getElem?_map]
  by_cases hf : f < n
  · rw [List.getElem?_range hf]
    simp only [Option.map_some, Option.some.injEq, decide_eq_true_eq, gt_iff_lt, hf, true_and]
    norm_num
  · rw [List.getElem?_eq_none (by simpa using hf)]
    simp [hf]

theorem markByBox_get (n : ℕ) (cent : ℕ → ℝ × ℝ) (f : ℕ) :
    (markByBox n cent)[f]? = some true ↔
      f < n ∧ (0 < (cent f).1 ∧ (cent f).1 < 1 ∧ 3 < (cent f).2 ∧ (cent f).2 < 4) := by
  unfold markByBox
  rw [List.getElem?_map]
  by_cases hf : f < n
  · rw [List.getElem?_range hf]
    simp only [Option.map_some, Option.some.injEq, decide_eq_true_eq, gt_iff_lt, hf, true_and]
  · rw [List.getElem?_eq_none (by simpa using hf)]
    simp [hf]

/-! ## The run with data -/

/-- Specification (contract of `DMAdaptLabel`): the new cells are partitioned by the old ones, none of
which gets lost. -/
def AdaptOk (adapt : Adapter) : Prop :=
  ∀ n mesh lab, (adapt n mesh lab).1.nC = n ∧ (adapt n mesh lab).1.Ok

/-- Specification: the name of the file of the `j`-th refinement: `j` minutes after the start. -/
def minuteFile (dir idType : Str) (start : Tm) (j : ℕ) : Str :=
  datasetName dir idType (nextMinute^[j] start)

/-- Specification: a file can be used if it exists and has one value per cell of the base mesh. -/
def GoodFile (fs : Str → Option (List ℝ)) (n : ℕ) (name : Str) : Prop :=
  ∃ v, fs name = some v ∧ v.length = n

/-- Specification: the value of a file for a cell of the base mesh (0 if there is none). -/
def fileValue (fs : Str → Option (List ℝ)) (name : Str) (a : ℕ) : ℝ :=
  ((fs name).getD []).getD a 0

/-- The state after `k` refinements with data, and as many advances. -/
structure ProgInv (fs : Str → Option (List ℝ)) (dir idType : Str) (start : Tm) (coupling : ℝ) (n : ℕ)
    (k : ℕ) (s : AmrProg) : Prop where
  date : s.date = nextMinute^[k - 1] start
  files : s.files = (List.range k).map (minuteFile dir idType start)
  good : ∀ j < k, GoodFile fs n (minuteFile dir idType start j)
  chain : ChainOk n s.refs
  amr : s.amr = s.refs.foldl (fun s r => s.refine 1 r) (AmrState.init n)
  time : s.time = k * coupling
  len : s.refs.length = k
  lenM : s.marked.length = k
  marked : ∀ j p, s.marked[j]? = some p → ∀ f, f ∈ p.2 ↔
    ∃ a, Ancestor n (s.refs.take j) a f ∧ 0 < fileValue fs (minuteFile dir idType start j) a ∧
      1 / 8 < p.1.area f

theorem amr_sizes (n : ℕ) (rs : List Refine) (h : ChainOk n rs) :
    (rs.foldl (fun s r => s.refine 1 r) (AmrState.init n)).nBase = n ∧
    (rs.foldl (fun s r => s.refine 1 r) (AmrState.init n)).nCur = (rs.getLast?.map Refine.nF).getD n ∧
    (rs ≠ [] → (rs.foldl (fun s r => s.refine 1 r) (AmrState.init n)).refined = true) := by
  rcases List.eq_nil_or_concat' rs with rfl | ⟨l, r, rfl⟩
  · simp [AmrState.init]
  · obtain ⟨-, -, h1, h2⟩ := C58_chain n 1 (l ++ [r]) (by simp) h
    refine ⟨h1, h2, fun _ => ?_⟩
    rw [List.foldl_append]
    simp only [List.foldl_cons, List.foldl_nil]
    unfold AmrState.refine
    split
    · assumption
    · rfl

theorem ancestor_lt {n : ℕ} {rs : List Refine} {a f : ℕ} (h : ChainOk n rs) (hA : Ancestor n rs a f) :
    f < (rs.getLast?.map Refine.nF).getD n := by
  cases hA with
  | base _ hc => simpa using hc
  | step _ hc hf =>
    rw [ChainOk.append] at h
    simpa using h.2.2.lt _ hc _ hf

theorem ancestor_base {n : ℕ} {rs : List Refine} {a f : ℕ} (hA : Ancestor n rs a f) : a < n := by
  induction hA with
  | base _ hc => exact hc
  | step _ _ _ ih => exact ih

theorem readLevel0_good (fs : Str → Option (List ℝ)) (n : ℕ) (name : Str) (h : GoodFile fs n name) :
    ∃ v, readLevel0 fs n name = .ok v ∧ ∀ a, v a = fileValue fs name a := by
  obtain ⟨l, h1, h2⟩ := h
  refine ⟨fun i => l.getD i 0, ?_, fun a => ?_⟩
  · unfold readLevel0 readElevation
    rw [h1]
    dsimp only
    rw [if_pos h2]
  · unfold fileValue
    rw [h1]
    rfl

theorem readLevel0_bad (fs : Str → Option (List ℝ)) (n : ℕ) (name : Str) (h : ¬ GoodFile fs n name) :
    readLevel0 fs n name = .error := by
  unfold readLevel0 readElevation
  cases e : fs name with
  | none => rfl
  | some l =>
    dsimp only
    rw [if_neg fun hl => h ⟨l, e, hl⟩]

/-- The refinement and the advance that follow, once the values `v` of the next file on the current
mesh are known. -/
theorem inv_step (adapt : Adapter) (ha : AdaptOk adapt) (fs : Str → Option (List ℝ)) (dir idType : Str)
    (start : Tm) (coupling : ℝ) (n k : ℕ) (s : AmrProg)
    (hI : ProgInv fs dir idType start coupling n k s) (v : ℕ → ℝ)
    (hg : GoodFile fs n (minuteFile dir idType start k))
    (hv : ∀ a f, Ancestor n s.refs a f → v f = fileValue fs (minuteFile dir idType start k) a) :
    ∃ s', AmrProg.refineMarked adapt
        { s with
          date := nextMinute^[k] start
          files := s.files ++ [minuteFile dir idType start k] }
        (markByData s.amr.nCur s.mesh.area v) = .ok s' ∧
      ProgInv fs dir idType start coupling n (k + 1) (s'.advance coupling) := by
  obtain ⟨lab, e, hl⟩ := refineMarked_ok adapt
    { s with
      date := nextMinute^[k] start
      files := s.files ++ [minuteFile dir idType start k] }
    (markByData s.amr.nCur s.mesh.area v) (by simp [markByData])
  refine ⟨_, e, ?_⟩
  have hs := amr_sizes n s.refs hI.chain
  rw [← hI.amr] at hs
  have hr := ha s.amr.nCur s.mesh lab
  constructor
  · rfl
  · simp only [AmrProg.advance]
    rw [hI.files, List.range_succ, List.map_append]
    rfl
  · intro j hj
    rcases Nat.lt_succ_iff_lt_or_eq.1 hj with h | rfl
    · exact hI.good j h
    · exact hg
  · simp only [AmrProg.advance]
    rw [ChainOk.append]
    exact ⟨hI.chain, by rw [hr.1, hs.2.1], hr.2⟩
  · simp only [AmrProg.advance]
    rw [List.foldl_append, ← hI.amr]
    rfl
  · simp only [AmrProg.advance]
    rw [hI.time]; push_cast; ring
  · simp [AmrProg.advance, hI.len]
  · simp [AmrProg.advance, hI.lenM]
  · intro j p hp f
    simp only [AmrProg.advance] at hp ⊢
    by_cases hj : j < k
    · rw [List.getElem?_append_left (by rw [hI.lenM]; exact hj)] at hp
      rw [List.take_append_of_le_length (by rw [hI.len]; omega)]
      exact hI.marked j p hp f
    · have hj' : j = k := by
        by_contra hne
        rw [List.getElem?_eq_none (by simp [hI.lenM]; omega)] at hp
        cases hp
      subst hj'
      rw [List.getElem?_append_right (by rw [hI.lenM]), hI.lenM] at hp
      simp only [Nat.sub_self, List.getElem?_cons_zero, Option.some.injEq] at hp
      subst hp
      have ht : (s.refs ++ [(adapt s.amr.nCur s.mesh lab).1]).take j = s.refs := by
        rw [List.take_append_of_le_length (by rw [hI.len]), ← hI.len, List.take_length]
      rw [hl, markByData_get, ht]
      constructor
      · rintro ⟨h1, h2, h3⟩
        rw [hs.2.1] at h1
        obtain ⟨a, -, hA⟩ := C58_ancestor n s.refs hI.chain f h1
        exact ⟨a, hA, by rw [← hv a f hA]; exact h2, h3⟩
      · rintro ⟨a, hA, h2, h3⟩
        refine ⟨?_, by rw [hv a f hA]; exact h2, h3⟩
        rw [hs.2.1]
        exact ancestor_lt hI.chain hA

theorem inv_start (fs : Str → Option (List ℝ)) (dir idType : Str) (start : Tm) (coupling : ℝ) (n : ℕ)
    (mesh : AmrMesh) :
    ProgInv fs dir idType start coupling n 0 { AmrProg.start n mesh with date := start } := by
  constructor <;> simp [AmrProg.start, ChainOk]

theorem begin_data (adapt : Adapter) (ha : AdaptOk adapt) (fs : Str → Option (List ℝ))
    (dir idType : Str) (start : Tm) (hd : ValidTm start) (coupling : ℝ) (n : ℕ) (mesh : AmrMesh) :
    (GoodFile fs n (minuteFile dir idType start 0) →
      ∃ s, AmrProg.begin adapt fs idType coupling (some (dir, start)) (AmrProg.start n mesh) = .ok s ∧
        ProgInv fs dir idType start coupling n 1 s) ∧
    (¬ GoodFile fs n (minuteFile dir idType start 0) →
      AmrProg.begin adapt fs idType coupling (some (dir, start)) (AmrProg.start n mesh) = .error) := by
  have hm : datasetFilename dir idType start = (start, minuteFile dir idType start 0) := by
    unfold datasetFilename minuteFile
    rw [mktime_valid start hd]
    rfl
  constructor
  · intro hg
    obtain ⟨v, e, hv⟩ := readLevel0_good fs n _ hg
    obtain ⟨s', e', hI⟩ := inv_step adapt ha fs dir idType start coupling n 0 _
      (inv_start fs dir idType start coupling n mesh) v hg (by
        intro a f hA
        generalize hr : ({ AmrProg.start n mesh with date := start } : AmrProg).refs = rs at hA
        have hr' : rs = [] := hr.symm
        cases hA with
        | base => exact hv a
        | step => simp at hr')
    refine ⟨_, ?_, hI⟩
    unfold AmrProg.begin AmrProg.first
    dsimp only
    rw [hm]
    dsimp only
    have e0 : readLevel0 fs (AmrProg.start n mesh).amr.nBase (minuteFile dir idType start 0) = .ok v := e
    rw [e0]
    dsimp only
    rw [if_neg (by simp [AmrProg.start, AmrState.init])]
    have e1 : AmrProg.refineMarked adapt
        { AmrProg.start n mesh with
          date := start
          files := (AmrProg.start n mesh).files ++ [minuteFile dir idType start 0] }
        (markByData (AmrProg.start n mesh).amr.nCur (AmrProg.start n mesh).mesh.area v) = .ok s' := e'
    rw [e1]
  · intro hg
    unfold AmrProg.begin AmrProg.first
    dsimp only
    rw [hm]
    dsimp only
    have e0 : readLevel0 fs (AmrProg.start n mesh).amr.nBase (minuteFile dir idType start 0) = .error :=
      readLevel0_bad fs n _ hg
    rw [e0]

theorem body_data (adapt : Adapter) (ha : AdaptOk adapt) (fs : Str → Option (List ℝ))
    (dir idType : Str) (start : Tm) (hd : ValidTm start) (coupling : ℝ) (n k : ℕ) (s : AmrProg)
    (hI : ProgInv fs dir idType start coupling n (k + 1) s) :
    (GoodFile fs n (minuteFile dir idType start (k + 1)) →
      ∃ s', AmrProg.body adapt fs idType coupling (some (dir, start)) s = .ok s' ∧
        ProgInv fs dir idType start coupling n (k + 2) s') ∧
    (¬ GoodFile fs n (minuteFile dir idType start (k + 1)) →
      AmrProg.body adapt fs idType coupling (some (dir, start)) s = .error) := by
  have hv1 := iterMinute_valid start hd (k + 1)
  have hm : datasetFilename dir idType (nextMinuteDate s.date) =
      (nextMinute^[k + 1] start, minuteFile dir idType start (k + 1)) := by
    have hdt : s.date = nextMinute^[k] start := hI.date
    rw [hdt, nextMinuteDate_eq _ (iterMinute_valid start hd k), ← Function.iterate_succ_apply' nextMinute]
    unfold datasetFilename minuteFile
    rw [mktime_valid _ hv1]
  have hs := amr_sizes n s.refs hI.chain
  rw [← hI.amr] at hs
  have hne : s.refs ≠ [] := by
    intro h0
    have := hI.len
    rw [h0] at this
    simp at this
  constructor
  · intro hg
    obtain ⟨v, e, hv⟩ := readLevel0_good fs n _ hg
    obtain ⟨s', e', hI'⟩ := inv_step adapt ha fs dir idType start coupling n (k + 1) s hI
      (matVec s.amr.baseToCurrent (1 * s.amr.nBase) v) hg (by
        intro a f hA
        have := (C58_chain n 1 s.refs hne hI.chain).1 v a f 0 hA (by norm_num)
        rw [← hI.amr] at this
        simp only [one_mul, add_zero] at this ⊢
        rw [this, hv a])
    refine ⟨_, ?_, hI'⟩
    unfold AmrProg.body AmrProg.again
    dsimp only
    rw [hm]
    dsimp only
    rw [hs.1, e]
    dsimp only
    rw [if_pos (hs.2.2 hne)]
    rw [hs.1] at e'
    rw [e']
  · intro hg
    unfold AmrProg.body AmrProg.again
    dsimp only
    rw [hm]
    dsimp only
    rw [hs.1, readLevel0_bad fs n _ hg]

theorem loop_data (adapt : Adapter) (ha : AdaptOk adapt) (fs : Str → Option (List ℝ))
    (dir idType : Str) (start : Tm) (hd : ValidTm start) (coupling : ℝ) (hc : 1 ≤ coupling) (n N : ℕ) :
    ∀ (fuel k : ℕ) (s : AmrProg), ProgInv fs dir idType start coupling n (k + 1) s → k + 1 ≤ N →
      N ≤ k + 1 + fuel →
      ((∀ j < N, GoodFile fs n (minuteFile dir idType start j)) →
        ∃ s', AmrProg.loop adapt fs idType coupling (N * coupling) (some (dir, start)) fuel s = .ok s' ∧
          ProgInv fs dir idType start coupling n N s') ∧
      ((∃ j < N, ¬ GoodFile fs n (minuteFile dir idType start j)) →
        AmrProg.loop adapt fs idType coupling (N * coupling) (some (dir, start)) fuel s = .error) := by
  intro fuel
  induction fuel with
  | zero =>
    intro k s hI h1 h2
    have : N = k + 1 := by omega
    subst this
    refine ⟨fun _ => ⟨s, rfl, hI⟩, ?_⟩
    rintro ⟨j, hj, hb⟩
    exact absurd (hI.good j hj) hb
  | succ fuel ih =>
    intro k s hI h1 h2
    unfold AmrProg.loop
    by_cases hN : N = k + 1
    · subst hN
      rw [if_pos (by rw [hI.time]; norm_num)]
      refine ⟨fun _ => ⟨s, rfl, hI⟩, ?_⟩
      rintro ⟨j, hj, hb⟩
      exact absurd (hI.good j hj) hb
    · have hlt : k + 2 ≤ N := by omega
      have hnf : ¬ ((N : ℝ) * coupling - s.time < 1 / 10 ^ 13) := by
        rw [hI.time]
        have h3 : ((k + 2 : ℕ) : ℝ) ≤ N := by exact_mod_cast hlt
        push_cast at h3 ⊢
        have h4 : ((k : ℝ) + 2) * coupling ≤ N * coupling :=
          mul_le_mul_of_nonneg_right h3 (by linarith)
        have h5 : (1 : ℝ) / 10 ^ 13 < 1 := by norm_num
        intro h6
        linarith
      rw [if_neg hnf]
      obtain ⟨b1, b2⟩ := body_data adapt ha fs dir idType start hd coupling n k s hI
      by_cases hg : GoodFile fs n (minuteFile dir idType start (k + 1))
      · obtain ⟨s', e, hI'⟩ := b1 hg
        rw [e]
        exact ih (k + 1) s' hI' (by omega) (by omega)
      · rw [b2 hg]
        refine ⟨fun h => absurd (h (k + 1) (by omega)) hg, fun _ => rfl⟩

theorem program_data (adapt : Adapter) (ha : AdaptOk adapt) (fs : Str → Option (List ℝ))
    (dir idType : Str) (start : Tm) (hd : ValidTm start) (coupling : ℝ) (hc : 1 ≤ coupling) (n N : ℕ)
    (hN : 0 < N) (mesh : AmrMesh) (fuel : ℕ) (hf : N ≤ fuel) :
    ((∀ j < N, GoodFile fs n (minuteFile dir idType start j)) →
      ∃ s, amrProgram adapt fs idType coupling (N * coupling) (some (dir, start)) n mesh fuel = .ok s ∧
        ProgInv fs dir idType start coupling n N s) ∧
    ((∃ j < N, ¬ GoodFile fs n (minuteFile dir idType start j)) →
      amrProgram adapt fs idType coupling (N * coupling) (some (dir, start)) n mesh fuel = .error) := by
  obtain ⟨b1, b2⟩ := begin_data adapt ha fs dir idType start hd coupling n mesh
  unfold amrProgram
  by_cases hg : GoodFile fs n (minuteFile dir idType start 0)
  · obtain ⟨s, e, hI⟩ := b1 hg
    rw [e]
    exact loop_data adapt ha fs dir idType start hd coupling hc n N fuel 0 s hI (by omega) (by omega)
  · rw [b2 hg]
    exact ⟨fun h => absurd (h 0 hN) hg, fun _ => rfl⟩

/-- An adapter that splits every cell into four of equal area (areas being positive); the first one
keeps the centroid, as the middle one of the four parts of a triangle does. -/
def splitAll : Adapter := fun n mesh _ =>
  (⟨n, 4 * n, fun c => [4 * c, 4 * c + 1, 4 * c + 2, 4 * c + 3]⟩,
    ⟨fun f => min (mesh.area (f / 4)) (mesh.area (f / 4) / 4), fun f => mesh.cent (f / 4)⟩)

theorem splitAll_ok : AdaptOk splitAll := by
  intro n mesh lab
  refine ⟨rfl, ⟨?_, ?_, ?_, ?_, ?_⟩⟩
  · intro c hc f hf
    simp only [splitAll, List.mem_cons, List.not_mem_nil, or_false] at hc hf ⊢
    omega
  · intro c _; simp [splitAll]
  · intro c _; simp [splitAll]
  · intro f hf
    refine ⟨f / 4, ?_, ?_⟩
    · simp only [splitAll] at hf ⊢; omega
    · simp only [splitAll, List.mem_cons, List.not_mem_nil, or_false]; omega
  · intro c _ c' _ f h1 h2
    simp only [splitAll, List.mem_cons, List.not_mem_nil, or_false] at h1 h2
    omega

/-- A mesh of unit squares. -/
def unitMesh : AmrMesh := ⟨fun _ => 1, fun c => (c + 1 / 2, 1 / 2)⟩

theorem exStart_valid : ValidTm ⟨2017, 8, 26, 23, 58, 0⟩ :=
  ⟨by norm_num, by norm_num [monthLen], by norm_num, by norm_num, by norm_num⟩

/-- C98 (the files that are read): a run whose final time is `N` coupling intervals reads exactly the
files of the start date and of the `N - 1` minutes that follow it, one before each advance, provided
that all of them exist and have one value for each cell of the base mesh; if one of them does not, the
run ends with an error. -/
theorem C98_files (adapt : Adapter) (ha : AdaptOk adapt) (fs : Str → Option (List ℝ))
    (dir idType : Str) (start : Tm) (hd : ValidTm start) (coupling : ℝ) (hc : 1 ≤ coupling) (n N : ℕ)
    (hN : 0 < N) (mesh : AmrMesh) (fuel : ℕ) (hf : N ≤ fuel) :
    ((∀ j < N, GoodFile fs n (minuteFile dir idType start j)) →
      ∃ s, amrProgram adapt fs idType coupling (N * coupling) (some (dir, start)) n mesh fuel = .ok s ∧
        s.files = (List.range N).map (minuteFile dir idType start) ∧ s.time = N * coupling) ∧
    ((∃ j < N, ¬ GoodFile fs n (minuteFile dir idType start j)) →
      amrProgram adapt fs idType coupling (N * coupling) (some (dir, start)) n mesh fuel = .error) := by
  obtain ⟨h1, h2⟩ := program_data adapt ha fs dir idType start hd coupling hc n N hN mesh fuel hf
  refine ⟨fun h => ?_, h2⟩
  obtain ⟨s, e, hI⟩ := h1 h
  exact ⟨s, e, hI.files, hI.time⟩

/-- Three advances around midnight, with two cells. -/
example : ∃ s, amrProgram splitAll (fun _ => some [0, 1]) "int32".toList 60 ((3 : ℕ) * 60)
      (some ("d".toList, ⟨2017, 8, 26, 23, 58, 0⟩)) 2 unitMesh 3 = .ok s ∧
    s.files = ["d/2017-08-26:23-58.int32.bin".toList, "d/2017-08-26:23-59.int32.bin".toList,
      "d/2017-08-27:00-00.int32.bin".toList] := by
  obtain ⟨s, e, h, -⟩ := (C98_files splitAll splitAll_ok (fun _ => some [0, 1]) "d".toList
    "int32".toList ⟨2017, 8, 26, 23, 58, 0⟩ exStart_valid 60 (by norm_num) 2 3 (by norm_num) unitMesh 3
    le_rfl).1 (fun _ _ => ⟨_, rfl, rfl⟩)
  refine ⟨s, e, h.trans ?_⟩
  decide +kernel

/-- C98 (the cells that are marked): in a run with data, at every refinement, a cell of the mesh of
that moment is marked exactly if the file of that refinement has a positive value for the cell of the
base mesh it descends from, and its area exceeds 1/8. -/
theorem C98_marked (adapt : Adapter) (ha : AdaptOk adapt) (fs : Str → Option (List ℝ))
    (dir idType : Str) (start : Tm) (hd : ValidTm start) (coupling : ℝ) (hc : 1 ≤ coupling) (n N : ℕ)
    (hN : 0 < N) (mesh : AmrMesh) (fuel : ℕ) (hf : N ≤ fuel) (s : AmrProg)
    (h : amrProgram adapt fs idType coupling (N * coupling) (some (dir, start)) n mesh fuel = .ok s) :
    s.marked.length = N ∧ s.refs.length = N ∧ ChainOk n s.refs ∧
    ∀ j p, s.marked[j]? = some p → ∀ f, f ∈ p.2 ↔
      ∃ a, Ancestor n (s.refs.take j) a f ∧ 0 < fileValue fs (minuteFile dir idType start j) a ∧
        1 / 8 < p.1.area f := by
  obtain ⟨h1, h2⟩ := program_data adapt ha fs dir idType start hd coupling hc n N hN mesh fuel hf
  by_cases hg : ∀ j < N, GoodFile fs n (minuteFile dir idType start j)
  · obtain ⟨s', e, hI⟩ := h1 hg
    rw [h] at e
    cases e
    exact ⟨hI.lenM, hI.len, hI.chain, hI.marked⟩
  · push Not at hg
    rw [h2 hg] at h
    cases h

example : ∃ s, amrProgram splitAll (fun _ => some [0, 1]) "int32".toList 60 ((2 : ℕ) * 60)
      (some ("d".toList, ⟨2017, 8, 26, 23, 58, 0⟩)) 2 unitMesh 2 = .ok s ∧ s.marked.length = 2 := by
  obtain ⟨s, e, -⟩ := (C98_files splitAll splitAll_ok (fun _ => some [0, 1]) "d".toList
    "int32".toList ⟨2017, 8, 26, 23, 58, 0⟩ exStart_valid 60 (by norm_num) 2 2 (by norm_num) unitMesh 2
    le_rfl).1 (fun _ _ => ⟨_, rfl, rfl⟩)
  exact ⟨s, e, (C98_marked splitAll splitAll_ok (fun _ => some [0, 1]) "d".toList
    "int32".toList ⟨2017, 8, 26, 23, 58, 0⟩ exStart_valid 60 (by norm_num) 2 2 (by norm_num) unitMesh 2
    le_rfl s e).1⟩

/-! ## The time of the data -/

/-- Specification: the file read before the advance that begins at time `t` is that of `t` seconds
after the start. -/
def FileOfTime (start : Tm) (date : Tm) (t : ℝ) : Prop :=
  ((tmSeconds date - tmSeconds start : ℤ) : ℝ) = t

/-- C98 (the time of the data), the part that holds: with a coupling interval of one minute, the file
read before each advance is that of the time at which the advance begins. -/
theorem C98_time_partial (start : Tm) (hd : ValidTm start) (j : ℕ) :
    FileOfTime start (nextMinute^[j] start) (j * 60) := by
  unfold FileOfTime
  rw [iterMinute_seconds start hd]
  push_cast
  ring

example : ValidTm ⟨2017, 8, 26, 23, 58, 0⟩ := exStart_valid

/-- C98 (the time of the data), what fails: the date advances by one minute per advance whatever the
coupling interval is, so that for every other interval all files but the first are those of the wrong
time. -/
theorem C98_time_violated (start : Tm) (hd : ValidTm start) (coupling : ℝ) (h : coupling ≠ 60) (j : ℕ)
    (hj : 0 < j) : ¬ FileOfTime start (nextMinute^[j] start) (j * coupling) := by
  unfold FileOfTime
  rw [iterMinute_seconds start hd]
  push_cast
  intro e
  have h1 : (j : ℝ) * (coupling - 60) = 0 := by linarith
  have h2 : (j : ℝ) ≠ 0 := by exact_mod_cast hj.ne'
  rcases mul_eq_zero.1 h1 with h3 | h3
  · exact h2 h3
  · exact h (by linarith)

/-- With an interval of one hour, the file used after ten hours is that of minute ten. -/
example : ¬ FileOfTime ⟨2017, 8, 26, 23, 58, 0⟩ (nextMinute^[10] ⟨2017, 8, 26, 23, 58, 0⟩)
    ((10 : ℕ) * 3600) :=
  C98_time_violated _ exStart_valid 3600 (by norm_num) 10 (by norm_num)

/-! ## How often cells are refined -/

/-- Specification (contract of `DMAdaptLabel`): the parts of a cell are not larger than the cell, and
the parts of a labelled cell have a quarter of its area at most. -/
structure AdaptQuarters (adapt : Adapter) : Prop where
  le : ∀ n mesh lab, ∀ c < n, ∀ f ∈ (adapt n mesh lab).1.children c,
    (adapt n mesh lab).2.area f ≤ mesh.area c
  quarter : ∀ n mesh lab, ∀ c ∈ lab, c < n → ∀ f ∈ (adapt n mesh lab).1.children c,
    (adapt n mesh lab).2.area f ≤ mesh.area c / 4

/-- Specification: `c 0` is a cell of the base mesh, and `c (j + 1)` one of the parts into which
`c j` is split by refinement `j`. -/
def Lineage (rs : List Refine) (c : ℕ → ℕ) : Prop :=
  ∀ j r, rs[j]? = some r → c j < r.nC ∧ c (j + 1) ∈ r.children (c j)

open Classical in
/-- Specification: how many times a cell of the lineage was marked in the first `k` refinements. -/
def timesMarked (ms : List (AmrMesh × List ℕ)) (c : ℕ → ℕ) : ℕ → ℕ
  | 0 => 0
  | k + 1 => timesMarked ms c k + if ∃ p, ms[k]? = some p ∧ c k ∈ p.2 then 1 else 0

/-- The mesh at refinement `j` (after the last one: the current mesh). -/
def AmrProg.meshAt (s : AmrProg) (j : ℕ) : AmrMesh := ((s.marked[j]?).map Prod.fst).getD s.mesh

/-- The records of the run fit together: each refinement is that of the mesh and the cells recorded
with it, and leads to the next mesh. -/
structure HistInv (adapt : Adapter) (n : ℕ) (mesh : AmrMesh) (s : AmrProg) : Prop where
  len : s.refs.length = s.marked.length
  first : s.meshAt 0 = mesh
  cur : s.amr.nCur = (s.refs.getLast?.map Refine.nF).getD n
  step : ∀ j p, s.marked[j]? = some p →
    s.refs[j]? = some (adapt (((s.refs.take j).getLast?.map Refine.nF).getD n) p.1 p.2).1 ∧
    s.meshAt (j + 1) = (adapt (((s.refs.take j).getLast?.map Refine.nF).getD n) p.1 p.2).2

theorem hist_start (adapt : Adapter) (n : ℕ) (mesh : AmrMesh) :
    HistInv adapt n mesh (AmrProg.start n mesh) := by
  constructor <;> simp [AmrProg.start, AmrState.init, AmrProg.meshAt]

theorem refine_nCur (a : AmrState) (r : Refine) : (a.refine 1 r).nCur = r.nF := by
  unfold AmrState.refine
  split <;> rfl

theorem hist_refineMarked (adapt : Adapter) (n : ℕ) (mesh : AmrMesh) (s s' : AmrProg)
    (marks : List Bool) (hI : HistInv adapt n mesh s) (h : s.refineMarked adapt marks = .ok s') :
    HistInv adapt n mesh s' := by
  unfold AmrProg.refineMarked at h
  cases e1 : markCells true s.amr.nCur marks with
  | error => rw [e1] at h; cases h
  | ub => rw [e1] at h; cases h
  | ok m =>
    rw [e1] at h
    dsimp only at h
    cases e2 : adaptLabel s.amr.nCur s.amr.nCur (fun _ => true) id s.mesh.cent m with
    | error => rw [e2] at h; cases h
    | ub => rw [e2] at h; cases h
    | ok q =>
      obtain ⟨lab, m'⟩ := q
      rw [e2] at h
      simp only [Res.ok.injEq] at h
      subst h
      have hold : ∀ j, j ≤ s.marked.length →
          (s.refs ++ [(adapt s.amr.nCur s.mesh lab).1]).take j = s.refs.take j := fun j hj =>
        List.take_append_of_le_length (by rw [hI.len]; exact hj)
      have hmesh : ∀ j, j ≤ s.marked.length →
          (((s.marked ++ [(s.mesh, lab)])[j]?).map Prod.fst).getD (adapt s.amr.nCur s.mesh lab).2 =
            s.meshAt j := by
        intro j hj
        rcases Nat.lt_or_eq_of_le hj with hlt | rfl
        · rw [List.getElem?_append_left hlt]
          unfold AmrProg.meshAt
          rw [List.getElem?_eq_getElem hlt]
          rfl
        · rw [List.getElem?_append_right le_rfl]
          unfold AmrProg.meshAt
          rw [List.getElem?_eq_none (le_refl s.marked.length)]
          simp
      constructor
      · simp [hI.len]
      · unfold AmrProg.meshAt
        dsimp only
        rw [hmesh 0 (Nat.zero_le _)]
        exact hI.first
      · dsimp only
        rw [refine_nCur]
        simp
      · intro j p hp
        dsimp only at hp ⊢
        by_cases hj : j < s.marked.length
        · rw [List.getElem?_append_left hj] at hp
          obtain ⟨h1, h2⟩ := hI.step j p hp
          rw [hold j hj.le]
          refine ⟨?_, ?_⟩
          · rw [List.getElem?_append_left (by rw [hI.len]; exact hj)]
            exact h1
          · unfold AmrProg.meshAt
            dsimp only
            rw [hmesh (j + 1) hj]
            exact h2
        · have hj' : j = s.marked.length := by
            by_contra hne
            rw [List.getElem?_eq_none (by simp; omega)] at hp
            cases hp
          subst hj'
          rw [List.getElem?_append_right le_rfl] at hp
          simp only [Nat.sub_self, List.getElem?_cons_zero, Option.some.injEq] at hp
          subst hp
          rw [hold _ le_rfl, ← hI.len, List.take_length, ← hI.cur]
          refine ⟨?_, ?_⟩
          · rw [List.getElem?_append_right le_rfl]
            simp
          · unfold AmrProg.meshAt
            dsimp only
            rw [List.getElem?_eq_none (by simp [hI.len])]
            rfl

theorem hist_congr (adapt : Adapter) (n : ℕ) (mesh : AmrMesh) (s : AmrProg)
    (hI : HistInv adapt n mesh s) (d : Tm) (fl : List Str) (t : ℝ) :
    HistInv adapt n mesh { s with date := d, files := fl, time := t } :=
  ⟨hI.len, hI.first, hI.cur, hI.step⟩

theorem hist_begin (adapt : Adapter) (fs : Str → Option (List ℝ)) (idType : Str) (coupling : ℝ)
    (data : Option (Str × Tm)) (n : ℕ) (mesh : AmrMesh) (s s' : AmrProg)
    (hI : HistInv adapt n mesh s) (h : s.begin adapt fs idType coupling data = .ok s') :
    HistInv adapt n mesh s' := by
  unfold AmrProg.begin at h
  cases data with
  | none => cases h; exact hist_congr adapt n mesh s hI _ _ _
  | some q =>
    obtain ⟨dir, start⟩ := q
    dsimp only at h
    cases e : AmrProg.first adapt fs dir idType { s with date := start } with
    | error => rw [e] at h; cases h
    | ub => rw [e] at h; cases h
    | ok s1 =>
      rw [e] at h
      cases h
      unfold AmrProg.first at e
      dsimp only at e
      cases e2 : readLevel0 fs s.amr.nBase (datasetFilename dir idType start).2 with
      | error => rw [e2] at e; cases e
      | ub => rw [e2] at e; cases e
      | ok v =>
        rw [e2] at e
        dsimp only at e
        by_cases hc : s.amr.nBase < s.amr.nCur
        · rw [if_pos hc] at e; cases e
        · rw [if_neg hc] at e
          exact hist_congr adapt n mesh s1
            (hist_refineMarked adapt n mesh _ _ _ (hist_congr adapt n mesh s hI _ _ s.time) e) _ _ _

theorem hist_body (adapt : Adapter) (fs : Str → Option (List ℝ)) (idType : Str) (coupling : ℝ)
    (data : Option (Str × Tm)) (n : ℕ) (mesh : AmrMesh) (s s' : AmrProg)
    (hI : HistInv adapt n mesh s) (h : s.body adapt fs idType coupling data = .ok s') :
    HistInv adapt n mesh s' := by
  unfold AmrProg.body at h
  cases data with
  | none =>
    dsimp only at h
    cases e : AmrProg.refineMarked adapt s (markByBox s.amr.nCur s.mesh.cent) with
    | error => rw [e] at h; cases h
    | ub => rw [e] at h; cases h
    | ok s1 =>
      rw [e] at h
      cases h
      exact hist_congr adapt n mesh s1 (hist_refineMarked adapt n mesh _ _ _ hI e) _ _ _
  | some q =>
    obtain ⟨dir, start⟩ := q
    dsimp only at h
    cases e : AmrProg.again adapt fs dir idType s with
    | error => rw [e] at h; cases h
    | ub => rw [e] at h; cases h
    | ok s1 =>
      rw [e] at h
      cases h
      unfold AmrProg.again at e
      cases e2 : readLevel0 fs s.amr.nBase (datasetFilename dir idType (nextMinuteDate s.date)).2 with
      | error => rw [e2] at e; cases e
      | ub => rw [e2] at e; cases e
      | ok v =>
        rw [e2] at e
        dsimp only at e
        by_cases hc : s.amr.refined = true
        · rw [if_pos hc] at e
          exact hist_congr adapt n mesh s1
            (hist_refineMarked adapt n mesh _ _ _ (hist_congr adapt n mesh s hI _ _ s.time) e) _ _ _
        · rw [if_neg hc] at e; cases e

theorem hist_loop (adapt : Adapter) (fs : Str → Option (List ℝ)) (idType : Str) (coupling final : ℝ)
    (data : Option (Str × Tm)) (n : ℕ) (mesh : AmrMesh) (k : ℕ) :
    ∀ s s' : AmrProg, HistInv adapt n mesh s →
      s.loop adapt fs idType coupling final data k = .ok s' → HistInv adapt n mesh s' := by
  induction k with
  | zero => intro s s' hI h; cases h; exact hI
  | succ k ih =>
    intro s s' hI h
    unfold AmrProg.loop at h
    by_cases hc : final - s.time < 1 / 10 ^ 13
    · rw [if_pos hc] at h; cases h; exact hI
    · rw [if_neg hc] at h
      cases e : AmrProg.body adapt fs idType coupling data s with
      | error => rw [e] at h; cases h
      | ub => rw [e] at h; cases h
      | ok s1 =>
        rw [e] at h
        exact ih s1 s' (hist_body adapt fs idType coupling data n mesh s s1 hI e) h

theorem hist_program (adapt : Adapter) (fs : Str → Option (List ℝ)) (idType : Str)
    (coupling final : ℝ) (data : Option (Str × Tm)) (n : ℕ) (mesh : AmrMesh) (k : ℕ) (s : AmrProg)
    (h : amrProgram adapt fs idType coupling final data n mesh k = .ok s) :
    HistInv adapt n mesh s := by
  unfold amrProgram at h
  cases e : AmrProg.begin adapt fs idType coupling data (AmrProg.start n mesh) with
  | error => rw [e] at h; cases h
  | ub => rw [e] at h; cases h
  | ok s1 =>
    rw [e] at h
    exact hist_loop adapt fs idType coupling final data n mesh k s1 s
      (hist_begin adapt fs idType coupling data n mesh _ _ (hist_start adapt n mesh) e) h

theorem meshAt_of (s : AmrProg) (j : ℕ) (p : AmrMesh × List ℕ) (h : s.marked[j]? = some p) :
    s.meshAt j = p.1 := by
  unfold AmrProg.meshAt
  rw [h]
  rfl

/-- C98 (refinement ends): in a run with data, a part of the domain is marked only a bounded number
of times, however long the run is: if a cell of the base mesh and the cells it is split into, one
inside the other, are marked `m + 1` times in all, then `4 ^ m` is less than 8 times the area of the
first. -/
theorem C98_refinement_ends (adapt : Adapter) (ha : AdaptOk adapt) (hq : AdaptQuarters adapt)
    (fs : Str → Option (List ℝ)) (dir idType : Str) (start : Tm) (hd : ValidTm start) (coupling : ℝ)
    (hc : 1 ≤ coupling) (n N : ℕ) (hN : 0 < N) (mesh : AmrMesh) (fuel : ℕ) (hf : N ≤ fuel)
    (s : AmrProg)
    (h : amrProgram adapt fs idType coupling (N * coupling) (some (dir, start)) n mesh fuel = .ok s)
    (c : ℕ → ℕ) (hl : Lineage s.refs c) (m : ℕ) (hm : timesMarked s.marked c N = m + 1) :
    (4 : ℝ) ^ m < 8 * mesh.area (c 0) := by
  have hH := hist_program adapt fs idType coupling _ _ n mesh fuel s h
  obtain ⟨hM, hR, -, hmk⟩ := C98_marked adapt ha fs dir idType start hd coupling hc n N hN mesh fuel
    hf s h
  have key : ∀ k ≤ N, (s.meshAt k).area (c k) * 4 ^ timesMarked s.marked c k ≤ mesh.area (c 0) ∧
      ∀ m, timesMarked s.marked c k = m + 1 → (4 : ℝ) ^ m < 8 * mesh.area (c 0) := by
    intro k
    induction k with
    | zero =>
      intro _
      refine ⟨?_, fun m hm => ?_⟩
      · rw [hH.first]; simp [timesMarked]
      · simp [timesMarked] at hm
    | succ k ih =>
      intro hk
      obtain ⟨i1, i2⟩ := ih (by omega)
      obtain ⟨p, hp⟩ : ∃ p, s.marked[k]? = some p :=
        ⟨_, List.getElem?_eq_getElem (by rw [hM]; omega)⟩
      obtain ⟨h1, h2⟩ := hH.step k p hp
      obtain ⟨l1, l2⟩ := hl k _ h1
      rw [(ha _ p.1 p.2).1] at l1
      rw [meshAt_of s k p hp] at i1
      have hpos : (0 : ℝ) < 4 ^ timesMarked s.marked c k := by positivity
      by_cases hin : c k ∈ p.2
      · have e : timesMarked s.marked c (k + 1) = timesMarked s.marked c k + 1 := by
          rw [timesMarked, if_pos ⟨p, hp, hin⟩]
        have hq' := hq.quarter _ p.1 p.2 (c k) hin l1 (c (k + 1)) l2
        refine ⟨?_, fun m hm => ?_⟩
        · rw [e, h2, pow_succ]
          nlinarith
        · rw [e] at hm
          have em : timesMarked s.marked c k = m := by omega
          obtain ⟨a, -, -, h8⟩ := (hmk k p hp (c k)).1 hin
          rw [em] at i1 hpos
          nlinarith
      · have e : timesMarked s.marked c (k + 1) = timesMarked s.marked c k := by
          rw [timesMarked, if_neg (by
            rintro ⟨p', hp', hin'⟩
            rw [hp] at hp'
            cases hp'
            exact hin hin')]
          rfl
        have hq' := hq.le _ p.1 p.2 (c k) l1 (c (k + 1)) l2
        refine ⟨?_, fun m hm => ?_⟩
        · rw [e, h2]
          nlinarith
        · rw [e] at hm
          exact i2 m hm
  exact (key N le_rfl).2 m hm

theorem splitAll_quarters : AdaptQuarters splitAll := by
  constructor
  · intro n mesh lab c _ f hf
    simp only [splitAll, List.mem_cons, List.not_mem_nil, or_false] at hf ⊢
    have : f / 4 = c := by omega
    rw [this]
    exact min_le_left _ _
  · intro n mesh lab c _ _ f hf
    simp only [splitAll, List.mem_cons, List.not_mem_nil, or_false] at hf ⊢
    have : f / 4 = c := by omega
    rw [this]
    exact min_le_right _ _

theorem splitAll_lineage (s : AmrProg) (n : ℕ) (hn : 0 < n) (mesh : AmrMesh)
    (h : HistInv splitAll n mesh s) : Lineage s.refs fun _ => 0 := by
  intro j r hr
  have hj : j < s.marked.length := by
    rw [← h.len]
    exact (List.getElem?_eq_some_iff.1 hr).1
  have hp := (h.step j _ (List.getElem?_eq_getElem hj)).1
  rw [hr] at hp
  have he := Option.some.inj hp
  refine ⟨?_, ?_⟩
  · rw [he]
    simp only [splitAll]
    have hpos : ∀ k, 0 < (((s.refs.take k).getLast?.map Refine.nF).getD n) := by
      intro k
      induction k with
      | zero => simpa using hn
      | succ k ih =>
        by_cases hk : k < s.refs.length
        · have hk' := (h.step k _ (List.getElem?_eq_getElem (by rw [← h.len]; exact hk))).1
          rw [List.getElem?_eq_getElem hk] at hk'
          rw [List.take_succ_eq_append_getElem hk, List.getLast?_append, Option.some.inj hk']
          simp only [List.getLast?_singleton, Option.some_or, Option.map_some, Option.getD_some,
            splitAll]
          omega
        · rw [List.take_of_length_le (by omega)]
          rw [List.take_of_length_le (by omega)] at ih
          exact ih
    exact hpos j
  · rw [he]
    simp [splitAll]

/-- With unit squares, cell 0 and its first parts are marked twice at most, in a run of any length. -/
example (N : ℕ) (hN : 0 < N) : ∃ s,
    amrProgram splitAll (fun _ => some [1, 1]) "int32".toList 60 (N * 60)
      (some ("d".toList, ⟨2017, 8, 26, 23, 58, 0⟩)) 2 unitMesh N = .ok s ∧
    timesMarked s.marked (fun _ => 0) N ≤ 2 := by
  obtain ⟨s, e, -⟩ := (C98_files splitAll splitAll_ok (fun _ => some [1, 1]) "d".toList
    "int32".toList ⟨2017, 8, 26, 23, 58, 0⟩ exStart_valid 60 (by norm_num) 2 N hN unitMesh N
    le_rfl).1 (fun _ _ => ⟨_, rfl, rfl⟩)
  refine ⟨s, e, ?_⟩
  have hH := hist_program splitAll _ _ _ _ _ 2 unitMesh N s e
  by_contra hcon
  obtain ⟨m, hm2⟩ : ∃ m, timesMarked s.marked (fun _ => 0) N = (m + 2) + 1 :=
    ⟨timesMarked s.marked (fun _ => 0) N - 3, by omega⟩
  have := C98_refinement_ends splitAll splitAll_ok splitAll_quarters (fun _ => some [1, 1]) "d".toList
    "int32".toList ⟨2017, 8, 26, 23, 58, 0⟩ exStart_valid 60 (by norm_num) 2 N hN unitMesh N
    le_rfl s e _ (splitAll_lineage s 2 (by norm_num) unitMesh hH) (m + 2) hm2
  have h1 : (1 : ℝ) ≤ 4 ^ m := one_le_pow₀ (by norm_num)
  rw [pow_add] at this
  norm_num [unitMesh] at this
  linarith

/-! ## The run without data -/

/-- Specification (contract of `DMAdaptLabel` for triangles): one of the parts of a labelled cell has
the same centroid and a quarter of the area at most. -/
def AdaptMiddle (adapt : Adapter) : Prop :=
  ∀ n mesh lab, ∀ c ∈ lab, c < n → ∃ f ∈ (adapt n mesh lab).1.children c,
    (adapt n mesh lab).2.cent f = mesh.cent c ∧ (adapt n mesh lab).2.area f ≤ mesh.area c / 4

/-- Specification: a point in the box that the program refines if it has no data. -/
def InBox (p : ℝ × ℝ) : Prop := 0 < p.1 ∧ p.1 < 1 ∧ 3 < p.2 ∧ p.2 < 4

/-- C98 (without data): a run without data marks, at each of its refinements, the cells with their
centroid in the box, and no other. -/
theorem C98_box (adapt : Adapter) (s : AmrProg) :
    ∃ s' lab, s.refineMarked adapt (markByBox s.amr.nCur s.mesh.cent) = .ok s' ∧
      s'.marked = s.marked ++ [(s.mesh, lab)] ∧
      s'.amr = s.amr.refine 1 (adapt s.amr.nCur s.mesh lab).1 ∧
      s'.mesh = (adapt s.amr.nCur s.mesh lab).2 ∧ s'.time = s.time ∧
      ∀ f, f ∈ lab ↔ f < s.amr.nCur ∧ InBox (s.mesh.cent f) := by
  obtain ⟨lab, e, hl⟩ := refineMarked_ok adapt s (markByBox s.amr.nCur s.mesh.cent)
    (by simp [markByBox])
  refine ⟨_, lab, e, rfl, rfl, rfl, rfl, fun f => ?_⟩
  rw [hl, markByBox_get]
  rfl

example : ∃ s' lab, (AmrProg.start 1 ⟨fun _ => 2, fun _ => (1 / 2, 7 / 2)⟩).refineMarked splitAll
      (markByBox 1 fun _ => (1 / 2, 7 / 2)) = .ok s' ∧
    s'.marked = [(⟨fun _ => 2, fun _ => (1 / 2, 7 / 2)⟩, lab)] ∧ 0 ∈ lab := by
  obtain ⟨s', lab, h1, h2, -, -, -, h3⟩ := C98_box splitAll
    (AmrProg.start 1 ⟨fun _ => 2, fun _ => (1 / 2, 7 / 2)⟩)
  refine ⟨s', lab, h1, h2, (h3 0).2 ⟨by simp [AmrProg.start, AmrState.init], ?_⟩⟩
  unfold InBox
  simp only [AmrProg.start]
  norm_num

/-- C98 (refinement ends), what fails without data: a triangle with its centroid in the box is split
at every advance but the first, without a bound, so that after `N + 1` advances there is a cell whose
area is `4 ^ N` times smaller, while the time step stays what it was. -/
theorem C98_box_violated (adapt : Adapter) (ha : AdaptOk adapt) (hmid : AdaptMiddle adapt)
    (fs : Str → Option (List ℝ)) (idType : Str) (coupling : ℝ) (hc : 1 ≤ coupling) (n : ℕ)
    (mesh : AmrMesh) (c : ℕ) (hcn : c < n) (hb : InBox (mesh.cent c)) (N : ℕ) :
    ∃ s, amrProgram adapt fs idType coupling ((N + 1 : ℕ) * coupling) none n mesh N = .ok s ∧
      s.time = (N + 1 : ℕ) * coupling ∧
      ∃ f < s.amr.nCur, s.mesh.cent f = mesh.cent c ∧ s.mesh.area f ≤ mesh.area c / 4 ^ N := by
  have key : ∀ (fuel k : ℕ) (s : AmrProg), k + fuel = N → s.time = (k + 1 : ℕ) * coupling →
      (∃ f < s.amr.nCur, s.mesh.cent f = mesh.cent c ∧ s.mesh.area f ≤ mesh.area c / 4 ^ k) →
      ∃ s', AmrProg.loop adapt fs idType coupling ((N + 1 : ℕ) * coupling) none fuel s = .ok s' ∧
        s'.time = (N + 1 : ℕ) * coupling ∧
        ∃ f < s'.amr.nCur, s'.mesh.cent f = mesh.cent c ∧ s'.mesh.area f ≤ mesh.area c / 4 ^ N := by
    intro fuel
    induction fuel with
    | zero =>
      intro k s hk ht hf
      have : k = N := by omega
      subst this
      exact ⟨s, rfl, ht, hf⟩
    | succ fuel ih =>
      rintro k s hk ht ⟨f, hf1, hf2, hf3⟩
      have hnf : ¬ (((N + 1 : ℕ) : ℝ) * coupling - s.time < 1 / 10 ^ 13) := by
        rw [ht]
        have h3 : ((k + 2 : ℕ) : ℝ) ≤ (N + 1 : ℕ) := by exact_mod_cast (by omega)
        push_cast at h3 ⊢
        have h4 : ((k : ℝ) + 2) * coupling ≤ ((N : ℝ) + 1) * coupling :=
          mul_le_mul_of_nonneg_right h3 (by linarith)
        have h5 : (1 : ℝ) / 10 ^ 13 < 1 := by norm_num
        intro h6
        linarith
      obtain ⟨s', lab, e, -, e2, e3, e4, hl⟩ := C98_box adapt s
      have hin : f ∈ lab := (hl f).2 ⟨hf1, by rw [hf2]; exact hb⟩
      obtain ⟨g, hg1, hg2, hg3⟩ := hmid s.amr.nCur s.mesh lab f hin hf1
      have hok := ha s.amr.nCur s.mesh lab
      unfold AmrProg.loop
      rw [if_neg hnf]
      have eb : AmrProg.body adapt fs idType coupling none s = .ok (s'.advance coupling) := by
        unfold AmrProg.body
        dsimp only
        rw [e]
      rw [eb]
      dsimp only
      refine ih (k + 1) (s'.advance coupling) (by omega) ?_ ⟨g, ?_, ?_, ?_⟩
      · simp only [AmrProg.advance]
        rw [e4, ht]
        push_cast
        ring
      · simp only [AmrProg.advance]
        rw [e2, refine_nCur]
        exact hok.2.lt f (by rw [hok.1]; exact hf1) g hg1
      · simp only [AmrProg.advance]
        rw [e3, hg2, hf2]
      · simp only [AmrProg.advance]
        rw [e3, pow_succ]
        calc _ ≤ s.mesh.area f / 4 := hg3
          _ ≤ (mesh.area c / 4 ^ k) / 4 := by linarith
          _ = _ := by rw [div_div]
  unfold amrProgram AmrProg.begin
  dsimp only
  refine key N 0 _ (by omega) ?_ ⟨c, ?_, rfl, ?_⟩
  · simp [AmrProg.advance, AmrProg.start]
  · simpa [AmrProg.advance, AmrProg.start, AmrState.init] using hcn
  · simp [AmrProg.advance, AmrProg.start]

theorem splitAll_middle : AdaptMiddle splitAll := by
  intro n mesh lab c _ _
  refine ⟨4 * c, by simp [splitAll], ?_, ?_⟩
  · simp [splitAll]
  · simp only [splitAll]
    have : 4 * c / 4 = c := by omega
    rw [this]
    exact min_le_right _ _

example : ∃ s, amrProgram splitAll (fun _ => none) "int32".toList 60 ((10 + 1 : ℕ) * 60) none 1
      ⟨fun _ => 1, fun _ => (1 / 2, 7 / 2)⟩ 10 = .ok s ∧ ∃ f, s.mesh.area f ≤ 1 / 1000000 := by
  obtain ⟨s, e, -, f, -, -, h⟩ := C98_box_violated splitAll splitAll_ok splitAll_middle (fun _ => none)
    "int32".toList 60 (by norm_num) 1 ⟨fun _ => 1, fun _ => (1 / 2, 7 / 2)⟩ 0 (by norm_num)
    (by unfold InBox; norm_num) 10
  refine ⟨s, e, f, h.trans ?_⟩
  norm_num

end RDy
