import Verif.Model.Mesh
import Mathlib.Data.List.Range
import Mathlib.Tactic.Linarith
import Mathlib.Tactic.Ring

/-! Helper lemmas on cell numbering. -/

namespace RDy

/-- Number of owned cells below `i`. -/
def ownedBelow (own : ℕ → Bool) (i : ℕ) : ℕ := ((List.range i).filter fun j => own j).length

/-- Number of ghost cells below `i`. -/
def ghostBelow (own : ℕ → Bool) (i : ℕ) : ℕ := ((List.range i).filter fun j => !own j).length

theorem ownedBelow_succ (own : ℕ → Bool) (i : ℕ) :
    ownedBelow own (i + 1) = ownedBelow own i + (if own i then 1 else 0) := by
  unfold ownedBelow
  rw [List.range_succ, List.filter_append, List.length_append]
  by_cases h : own i <;> simp [h]

theorem ghostBelow_succ (own : ℕ → Bool) (i : ℕ) :
    ghostBelow own (i + 1) = ghostBelow own i + (if own i then 0 else 1) := by
  unfold ghostBelow
  rw [List.range_succ, List.filter_append, List.length_append]
  by_cases h : own i <;> simp [h]

theorem ownedBelow_mono (own : ℕ → Bool) {i j : ℕ} (h : i ≤ j) :
    ownedBelow own i ≤ ownedBelow own j := by
  induction j, h using Nat.le_induction with
  | base => exact le_refl _
  | succ j _ ih => rw [ownedBelow_succ]; omega

theorem ownedBelow_lt (own : ℕ → Bool) {i j : ℕ} (h : i < j) (hi : own i) :
    ownedBelow own i < ownedBelow own j := by
  have h1 := ownedBelow_succ own i
  have h2 := ownedBelow_mono own (show i + 1 ≤ j from h)
  simp [hi] at h1; omega

theorem ghostBelow_mono (own : ℕ → Bool) {i j : ℕ} (h : i ≤ j) :
    ghostBelow own i ≤ ghostBelow own j := by
  induction j, h using Nat.le_induction with
  | base => exact le_refl _
  | succ j _ ih => rw [ghostBelow_succ]; omega

theorem ghostBelow_lt (own : ℕ → Bool) {i j : ℕ} (h : i < j) (hi : own i = false) :
    ghostBelow own i < ghostBelow own j := by
  have h1 := ghostBelow_succ own i
  have h2 := ghostBelow_mono own (show i + 1 ≤ j from h)
  simp [hi] at h1; omega

theorem below_add (own : ℕ → Bool) (n : ℕ) : ownedBelow own n + ghostBelow own n = n := by
  induction n with
  | zero => rfl
  | succ n ih => rw [ownedBelow_succ, ghostBelow_succ]; split_ifs <;> omega

theorem numOwned_eq (own : ℕ → Bool) (n : ℕ) : numOwned own n = ownedBelow own n := by
  induction n with
  | zero => rfl
  | succ n ih =>
    unfold numOwned at *
    rw [List.range_succ, List.foldl_append, ih, ownedBelow_succ]
    by_cases h : own n <;> simp [h]

/-- Effect of the first loop on cells `0..n-1`. -/
theorem ownedLoop (own : ℕ → Bool) (n : ℕ) :
    ((List.range n).foldl (numOwnedStep own) NumState.init).count = ownedBelow own n ∧
    (∀ i, ((List.range n).foldl (numOwnedStep own) NumState.init).l2o i
      = if i < n ∧ own i then (ownedBelow own i : ℤ) else -1) ∧
    (∀ i < n, own i → ((List.range n).foldl (numOwnedStep own) NumState.init).o2l (ownedBelow own i)
      = i) ∧
    (∀ k : ℕ, ownedBelow own n ≤ k →
      ((List.range n).foldl (numOwnedStep own) NumState.init).o2l k = -1) := by
  induction n with
  | zero => simp [NumState.init, ownedBelow]
  | succ n ih =>
    obtain ⟨h1, h2, h3, h4⟩ := ih
    rw [List.range_succ, List.foldl_append, List.foldl_cons, List.foldl_nil]
    set s := (List.range n).foldl (numOwnedStep own) NumState.init
    unfold numOwnedStep
    have hs := ownedBelow_succ own n
    by_cases h : own n = true
    · rw [if_pos h] at hs ⊢
      refine ⟨?_, ?_, ?_, ?_⟩
      · simp only [h1, hs]; push_cast; ring
      · intro i
        by_cases hi : i = n
        · subst hi; simp [h, h1]
        · simp only [Function.update_of_ne hi, h2 i]
          by_cases ho : own i <;> simp [ho]
          · split_ifs <;> first | rfl | omega
      · intro i hi ho
        by_cases hin : i = n
        · subst hin; simp [h1]
        · have hlt : i < n := by omega
          have := ownedBelow_lt own hlt ho
          have hne : ((ownedBelow own i : ℕ) : ℤ) ≠ s.count := by rw [h1]; exact_mod_cast this.ne
          simp only [Function.update_of_ne hne]
          exact h3 i hlt ho
      · intro k hk
        have hne : (k : ℤ) ≠ s.count := by rw [h1]; omega
        simp only [Function.update_of_ne hne]
        exact h4 k (by omega)
    · rw [if_neg h] at hs ⊢
      refine ⟨by rw [h1, hs]; simp, ?_, ?_, ?_⟩
      · intro i
        rw [h2 i]
        by_cases hi : i = n
        · subst hi; simp [h]
        · by_cases ho : own i <;> simp [ho]
          · split_ifs <;> first | rfl | omega
      · intro i hi ho
        have hin : i ≠ n := by rintro rfl; exact h ho
        exact h3 i (by omega) ho
      · intro k hk; exact h4 k (by omega)

/-- Effect of the second loop. -/
theorem ghostLoop (own : ℕ → Bool) (s : NumState) (n : ℕ) :
    ((List.range n).foldl (numGhostStep own) s).count = s.count + ghostBelow own n ∧
    (∀ i, ((List.range n).foldl (numGhostStep own) s).l2o i
      = if i < n ∧ own i = false then s.count + ghostBelow own i else s.l2o i) ∧
    ((List.range n).foldl (numGhostStep own) s).o2l = s.o2l := by
  induction n with
  | zero => simp [ghostBelow]
  | succ n ih =>
    obtain ⟨h1, h2, h3⟩ := ih
    rw [List.range_succ, List.foldl_append, List.foldl_cons, List.foldl_nil]
    set t := (List.range n).foldl (numGhostStep own) s
    unfold numGhostStep
    have hs := ghostBelow_succ own n
    by_cases h : own n = true
    · rw [if_pos h] at hs ⊢
      refine ⟨by rw [h1, hs]; simp, ?_, h3⟩
      intro i
      rw [h2 i]
      by_cases hi : i = n
      · subst hi; simp [h]
      · by_cases ho : own i <;> simp [ho]
        · split_ifs <;> first | rfl | omega
    · rw [if_neg h] at hs ⊢
      refine ⟨?_, ?_, h3⟩
      · simp only [h1, hs]; push_cast; ring
      · intro i
        by_cases hi : i = n
        · subst hi; simp [h, h1]
        · simp only [Function.update_of_ne hi, h2 i]
          by_cases ho : own i <;> simp [ho]
          · split_ifs <;> first | rfl | omega

theorem exists_ownedBelow (own : ℕ → Bool) (n k : ℕ) (h : k < ownedBelow own n) :
    ∃ i < n, own i = true ∧ ownedBelow own i = k := by
  induction n with
  | zero => simp [ownedBelow] at h
  | succ n ih =>
    by_cases hk : k < ownedBelow own n
    · obtain ⟨i, hi, ho, he⟩ := ih hk
      exact ⟨i, by omega, ho, he⟩
    · rw [ownedBelow_succ] at h
      by_cases ho : own n = true
      · rw [if_pos ho] at h
        exact ⟨n, by omega, ho, by omega⟩
      · rw [if_neg ho] at h; omega

theorem exists_ghostBelow (own : ℕ → Bool) (n k : ℕ) (h : k < ghostBelow own n) :
    ∃ i < n, own i = false ∧ ghostBelow own i = k := by
  induction n with
  | zero => simp [ghostBelow] at h
  | succ n ih =>
    by_cases hk : k < ghostBelow own n
    · obtain ⟨i, hi, ho, he⟩ := ih hk
      exact ⟨i, by omega, ho, he⟩
    · rw [ghostBelow_succ] at h
      by_cases ho : own n = true
      · rw [if_pos ho] at h; omega
      · rw [if_neg ho] at h
        exact ⟨n, by omega, by simpa using ho, by omega⟩

theorem ownedValues_eq {α : Type} (own : ℕ → Bool) (n : ℕ) (f : ℕ → α) :
    ownedValues own n f = ((List.range n).filter fun j => own j).map f := by
  induction n with
  | zero => rfl
  | succ n ih =>
    unfold ownedValues at *
    rw [List.range_succ, List.foldl_append, ih, List.filter_append, List.map_append]
    by_cases h : own n <;> simp [h]

end RDy
