import Verif.Model.PartStats
import Verif.Props.Parts
import Mathlib.Tactic

/-!
C126: the statistics on the distribution of the mesh. Specification: order statistics of the numbers of cells of the processes, by counting, without sorting.
-/

namespace RDy

/-! ### Specification -/

/-- `m` is the lower median of `l`: fewer than half of the entries are below it, and at least half are not above it. -/
def IsLowerMedian (l : List ℕ) (m : ℕ) : Prop := m ∈ l ∧ 2 * l.countP (fun x => decide (x < m)) < l.length ∧ l.length ≤ 2 * l.countP (fun x => decide (x ≤ m))

/-- There is at most one lower median. -/
theorem IsLowerMedian.unique {l : List ℕ} {a b : ℕ} (ha : IsLowerMedian l a) (hb : IsLowerMedian l b) : a = b := by
  have key : ∀ {a b : ℕ}, IsLowerMedian l a → IsLowerMedian l b → ¬ a < b := by
    intro a b ha hb h
    have : l.countP (fun x => decide (x ≤ a)) ≤ l.countP (fun x => decide (x < b)) :=
      List.countP_mono_left (fun x _ hx => by simp only [decide_eq_true_eq] at hx ⊢; omega)
    have h1 := ha.2.2
    have h2 := hb.2.1
    omega
  have h1 := key ha hb
  have h2 := key hb ha
  omega

/-! ### Sorted lists -/

theorem sorted_getElem_le {s : List ℕ} (hs : s.Pairwise (· ≤ ·)) {i j : ℕ} (hj : j < s.length) (h : i ≤ j) : s[i]'(by omega) ≤ s[j] := by
  rcases Nat.lt_or_eq_of_le h with h | h
  · exact List.pairwise_iff_getElem.mp hs i j (by omega) hj h
  · subst h; exact le_rfl

theorem sorted_below {s : List ℕ} (hs : s.Pairwise (· ≤ ·)) {i : ℕ} (hi : i < s.length) : s.countP (fun x => decide (x < s[i])) ≤ i := by
  have hsplit : s.countP (fun x => decide (x < s[i])) = (s.take i).countP (fun x => decide (x < s[i])) + (s.drop i).countP (fun x => decide (x < s[i])) := by
    rw [← List.countP_append, List.take_append_drop]
  have h0 : (s.drop i).countP (fun x => decide (x < s[i])) = 0 := by
    rw [List.countP_eq_zero]
    intro x hx
    obtain ⟨k, hk, rfl⟩ := List.mem_iff_getElem.mp hx
    rw [List.length_drop] at hk
    simp only [List.getElem_drop, decide_eq_true_eq, not_lt]
    exact sorted_getElem_le hs (by omega) (by omega)
  have h1 : (s.take i).countP (fun x => decide (x < s[i])) ≤ (s.take i).length := List.countP_le_length
  rw [List.length_take] at h1
  omega

theorem sorted_upto {s : List ℕ} (hs : s.Pairwise (· ≤ ·)) {i : ℕ} (hi : i < s.length) : i + 1 ≤ s.countP (fun x => decide (x ≤ s[i])) := by
  have hsplit : s.countP (fun x => decide (x ≤ s[i])) = (s.take (i + 1)).countP (fun x => decide (x ≤ s[i])) + (s.drop (i + 1)).countP (fun x => decide (x ≤ s[i])) := by
    rw [← List.countP_append, List.take_append_drop]
  have h1 : (s.take (i + 1)).countP (fun x => decide (x ≤ s[i])) = (s.take (i + 1)).length := by
    rw [List.countP_eq_length]
    intro x hx
    obtain ⟨k, hk, rfl⟩ := List.mem_iff_getElem.mp hx
    rw [List.length_take] at hk
    simp only [List.getElem_take, decide_eq_true_eq]
    exact sorted_getElem_le hs hi (by omega)
  rw [List.length_take] at h1
  omega

theorem medianIndex_spec {n : ℕ} (h : 0 < n) : 2 * medianIndex n < n ∧ n ≤ 2 * (medianIndex n + 1) := by
  unfold medianIndex
  split <;> omega

/-- What is read out of the sorted numbers. -/
theorem partStats_eq {l : List ℕ} {t : PartStats} (h : partStats l = some t) : ∃ s : List ℕ, s.Perm l ∧ s.Pairwise (· ≤ ·) ∧ t.total = l.sum ∧
    s[0]? = some t.min ∧ s[l.length - 1]? = some t.max ∧ s[medianIndex l.length]? = some t.median ∧ t.ratio = statRatio t.max t.median := by
  refine ⟨l.insertionSort (· ≤ ·), List.perm_insertionSort _ l, List.pairwise_insertionSort _ l, ?_⟩
  unfold partStats at h
  dsimp only at h
  split at h
  · rename_i a b c ha hb hc
    cases h
    exact ⟨rfl, ha, hb, hc, rfl⟩
  · cases h

/-! ### C126 -/

/-- Process 0 reads inside the gathered array, whatever the numbers. -/
theorem C126_defined {l : List ℕ} (h : l ≠ []) : ∃ t, partStats l = some t := by
  have hl : 0 < l.length := List.length_pos_iff.mpr h
  have hm := (medianIndex_spec hl).1
  unfold partStats
  dsimp only
  rw [List.getElem?_eq_getElem (show 0 < (l.insertionSort (· ≤ ·)).length by rw [List.length_insertionSort]; omega),
    List.getElem?_eq_getElem (show l.length - 1 < (l.insertionSort (· ≤ ·)).length by rw [List.length_insertionSort]; omega),
    List.getElem?_eq_getElem (show medianIndex l.length < (l.insertionSort (· ≤ ·)).length by rw [List.length_insertionSort]; omega)]
  exact ⟨_, rfl⟩

/-- The smallest and the largest number are those of some process and bound all of them, and so the total. -/
theorem C126_extremes {l : List ℕ} {t : PartStats} (h : partStats l = some t) :
    t.min ∈ l ∧ t.max ∈ l ∧ (∀ x ∈ l, t.min ≤ x ∧ x ≤ t.max) ∧ t.total = l.sum ∧ l.length * t.min ≤ t.total ∧ t.total ≤ l.length * t.max := by
  obtain ⟨s, hp, hs, ht, h0, h1, -, -⟩ := partStats_eq h
  have hlen := hp.length_eq
  obtain ⟨i0, e0⟩ := List.getElem?_eq_some_iff.mp h0
  obtain ⟨i1, e1⟩ := List.getElem?_eq_some_iff.mp h1
  have hb : ∀ x ∈ l, t.min ≤ x ∧ x ≤ t.max := by
    intro x hx
    obtain ⟨k, hk, rfl⟩ := List.mem_iff_getElem.mp (hp.mem_iff.mpr hx)
    rw [← e0, ← e1]
    exact ⟨sorted_getElem_le hs hk (by omega), sorted_getElem_le hs i1 (by omega)⟩
  refine ⟨hp.mem_iff.mp (e0 ▸ List.getElem_mem i0), hp.mem_iff.mp (e1 ▸ List.getElem_mem i1), hb, ht, ?_, ?_⟩
  · rw [ht]
    have := List.card_nsmul_le_sum l t.min (fun x hx => (hb x hx).1)
    simpa using this
  · rw [ht]
    have := List.sum_le_card_nsmul l t.max (fun x hx => (hb x hx).2)
    simpa using this

/-- The median is the lower median. -/
theorem C126_median {l : List ℕ} {t : PartStats} (h : partStats l = some t) : IsLowerMedian l t.median := by
  obtain ⟨s, hp, hs, -, -, -, hm, -⟩ := partStats_eq h
  have hlen := hp.length_eq
  obtain ⟨i, e⟩ := List.getElem?_eq_some_iff.mp hm
  obtain ⟨h1, h2⟩ := medianIndex_spec (show 0 < l.length by omega)
  refine ⟨hp.mem_iff.mp (e ▸ List.getElem_mem i), ?_, ?_⟩
  · rw [← hp.countP_eq, ← e]
    have := sorted_below hs i
    omega
  · rw [← hp.countP_eq, ← e]
    have := sorted_upto hs i
    omega

/-- The figures do not depend on which process holds which part. -/
theorem C126_order {l l' : List ℕ} (h : l.Perm l') : partStats l = partStats l' := by
  have hs : l.insertionSort (· ≤ ·) = l'.insertionSort (· ≤ ·) :=
    ((List.perm_insertionSort _ l).trans (h.trans (List.perm_insertionSort _ l').symm)).eq_of_pairwise' (List.pairwise_insertionSort _ l) (List.pairwise_insertionSort _ l')
  unfold partStats
  dsimp only
  rw [hs, h.length_eq, h.sum_eq]

/-- The ratio is a number exactly if more than half of the processes own cells; it is then at least one, the largest number over the median. -/
theorem C126_ratio {l : List ℕ} {t : PartStats} (h : partStats l = some t) :
    (t.ratio = none ↔ l.length ≤ 2 * l.count 0) ∧ ∀ r, t.ratio = some r → 1 ≤ r ∧ r * t.median = t.max := by
  have hmed := C126_median h
  have hext := C126_extremes h
  obtain ⟨-, -, -, -, -, -, -, hr⟩ := partStats_eq h
  have hcount : l.countP (fun x => decide (x ≤ 0)) = l.count 0 := by
    rw [List.count]
    exact List.countP_congr (fun x _ => by simp)
  constructor
  · rw [hr]
    unfold statRatio
    constructor
    · intro hn
      by_cases h0 : t.median = 0
      · have := hmed.2.2
        rw [h0, hcount] at this
        exact this
      · rw [if_neg h0] at hn; cases hn
    · intro hc
      have h0 : t.median = 0 := by
        by_contra h0
        have hle : l.countP (fun x => decide (x ≤ 0)) ≤ l.countP (fun x => decide (x < t.median)) :=
          List.countP_mono_left (fun x _ hx => by simp only [decide_eq_true_eq] at hx ⊢; omega)
        have := hmed.2.1
        omega
      rw [if_pos h0]
  · intro r he
    rw [hr] at he
    unfold statRatio at he
    by_cases h0 : t.median = 0
    · rw [if_pos h0] at he; cases he
    · rw [if_neg h0] at he
      cases he
      have hpos : (0 : ℚ) < (t.median : ℚ) := by exact_mod_cast Nat.pos_of_ne_zero h0
      refine ⟨?_, div_mul_cancel₀ _ hpos.ne'⟩
      rw [le_div_iff₀ hpos, one_mul]
      exact_mod_cast (hext.2.2.1 _ hmed.1).2

/-- The ratio is one exactly if the largest part is not larger than those of half of the processes. -/
theorem C126_balanced {l : List ℕ} {t : PartStats} (h : partStats l = some t) : t.ratio = some 1 ↔ 0 < t.max ∧ 2 * l.countP (fun x => decide (x < t.max)) < l.length := by
  have hmed := C126_median h
  have hext := C126_extremes h
  have hrat := C126_ratio h
  obtain ⟨-, -, -, -, -, -, -, hr⟩ := partStats_eq h
  constructor
  · intro h1
    have h2 := (hrat.2 1 h1).2
    rw [one_mul] at h2
    have h3 : t.median = t.max := by exact_mod_cast h2
    rw [← h3]
    refine ⟨?_, hmed.2.1⟩
    by_contra h0
    rw [hr] at h1
    unfold statRatio at h1
    rw [if_pos (by omega)] at h1
    cases h1
  · rintro ⟨h1, h2⟩
    have hM : IsLowerMedian l t.max := by
      refine ⟨hext.2.1, h2, ?_⟩
      have : l.countP (fun x => decide (x ≤ t.max)) = l.length := by
        rw [List.countP_eq_length]
        intro x hx
        exact decide_eq_true (hext.2.2.1 x hx).2
      omega
    have h3 : t.median = t.max := hmed.unique hM
    rw [hr, h3]
    unfold statRatio
    rw [if_neg (by omega), div_self (by exact_mod_cast (show t.max ≠ 0 by omega))]

/-- A run that starts has written a smallest number of at least one cell and a ratio that is a number; one whose log shows a smallest number of zero does not start. -/
theorem C126_started {ps : List Part} {t : PartStats} (hw : ∀ p ∈ ps, p.Wf) (hc : ∀ p ∈ ps, p.Covered) (hb : ∃ p ∈ ps, p.Touches)
    (h : partStats (ps.map Part.owned) = some t) : (startParts ps = .ok () ↔ 1 ≤ t.min) ∧ (startParts ps = .ok () → t.ratio ≠ none) := by
  have hext := C126_extremes h
  have hiff : startParts ps = .ok () ↔ 1 ≤ t.min := by
    rw [C125_starts_iff_partial hw hc hb]
    constructor
    · intro ha
      obtain ⟨p, hp, he⟩ := List.mem_map.mp hext.1
      rw [← he]
      exact ha p hp
    · intro h1 p hp
      have := (hext.2.2.1 _ (List.mem_map_of_mem hp)).1
      omega
  refine ⟨hiff, fun hs hn => ?_⟩
  have h1 := hiff.mp hs
  have h2 := (C126_ratio h).1.mp hn
  have h3 : (ps.map Part.owned).count 0 = 0 := by
    rw [List.count_eq_zero]
    intro h0
    have := (hext.2.2.1 0 h0).1
    omega
  have h4 := List.length_pos_of_mem hext.1
  omega

/-! ### Examples -/

/-- Four processes with 5, 0, 9 and 3 cells: the median is 3 (the lower one), the ratio 3. -/
theorem exStats : partStats [5, 0, 9, 3] = some ⟨17, 0, 9, 3, some 3⟩ := by
  have h : ([5, 0, 9, 3] : List ℕ).insertionSort (· ≤ ·) = [0, 3, 5, 9] := by decide +kernel
  unfold partStats
  dsimp only
  rw [h]
  simp [medianIndex, statRatio]
  norm_num

example : ∃ t, partStats [5, 0, 9, 3] = some t := C126_defined (by simp)

example : (0 : ℕ) ∈ [5, 0, 9, 3] ∧ (9 : ℕ) ∈ [5, 0, 9, 3] := ⟨(C126_extremes exStats).1, (C126_extremes exStats).2.1⟩

example : IsLowerMedian [5, 0, 9, 3] 3 := C126_median exStats

example : ¬ IsLowerMedian [5, 0, 9, 3] 5 := fun h => absurd ((C126_median exStats).unique h) (by decide)

example : partStats [9, 5, 3, 0] = some ⟨17, 0, 9, 3, some 3⟩ := (C126_order (show [9, 5, 3, 0].Perm [5, 0, 9, 3] by decide)).trans exStats

example : (3 : ℚ) * (3 : ℕ) = (9 : ℕ) := ((C126_ratio exStats).2 3 rfl).2

example : ¬ (some (3 : ℚ) = some 1) := by
  intro h
  exact absurd ((C126_balanced exStats).mp h).2 (by decide)

/-- A single process is balanced. -/
example {t : PartStats} (h : partStats [7] = some t) : t.ratio = some 1 := by
  have hm : t.max = 7 := by simpa using (C126_extremes h).2.1
  refine (C126_balanced h).mpr ⟨by omega, ?_⟩
  rw [hm]
  decide

/-- An interior process and one at the boundary, with their two cells: the log says so, and the run starts. -/
example {t : PartStats} (h : partStats ([exMiddle, exAlone].map Part.owned) = some t) (hm : exMiddle.Covered) (ha : exAlone.Covered) :
    startParts [exMiddle, exAlone] = .ok () ↔ 1 ≤ t.min := by
  refine (C126_started ?_ ?_ ⟨exAlone, by simp, exAlone_touches⟩ h).1
  · intro p hp
    rcases List.mem_cons.mp hp with rfl | hp
    · exact exMiddle_wf
    · rw [List.mem_singleton.mp hp]; exact exAlone_wf
  · intro p hp
    rcases List.mem_cons.mp hp with rfl | hp
    · exact hm
    · rw [List.mem_singleton.mp hp]; exact ha

/-- The hypotheses on the two parts hold. -/
example : exMiddle.Covered ∧ exAlone.Covered ∧ ∃ t, partStats ([exMiddle, exAlone].map Part.owned) = some t :=
  ⟨fun _ => by simp [exMiddle], fun _ => by simp [exAlone], C126_defined (by simp)⟩

end RDy
