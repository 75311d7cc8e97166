import Verif.Model.Output
import Mathlib.Tactic.Ring
import Mathlib.Tactic.IntervalCases
import Mathlib.Data.List.Lex
import Mathlib.Order.Basic

/-! Helper lemmas for file naming and batching. -/

namespace RDy

/-- Value of a big-endian digit list. -/
def beVal : List ℕ → ℕ
  | [] => 0
  | d :: ds => d * 10 ^ ds.length + beVal ds

theorem beVal_append (a b : List ℕ) : beVal (a ++ b) = beVal a * 10 ^ b.length + beVal b := by
  induction a with
  | nil => simp [beVal]
  | cons d ds ih => simp only [List.cons_append, beVal, ih, List.length_append, pow_add]; ring

theorem beVal_reverse (l : List ℕ) : beVal l.reverse = Nat.ofDigits 10 l := by
  induction l with
  | nil => rfl
  | cons d ds ih =>
    rw [List.reverse_cons, beVal_append, ih, Nat.ofDigits_cons]
    simp [beVal]; ring

theorem beVal_decimal (n : ℕ) : beVal (decimal n) = n := by
  unfold decimal
  split_ifs with h
  · subst h; rfl
  · rw [beVal_reverse, Nat.ofDigits_digits]

theorem beVal_replicate_zero (k : ℕ) : beVal (List.replicate k 0) = 0 := by
  induction k with
  | zero => rfl
  | succ k ih => simp [List.replicate_succ, beVal, ih]

theorem beVal_padded (w n : ℕ) : beVal (padded w n) = n := by
  unfold padded
  rw [beVal_append, beVal_replicate_zero, beVal_decimal]; simp

theorem decimal_lt (n : ℕ) : ∀ d ∈ decimal n, d < 10 := by
  intro d hd
  unfold decimal at hd
  split_ifs at hd with h
  · simp at hd; omega
  · exact Nat.digits_lt_base (by norm_num) (List.mem_reverse.1 hd)

theorem padded_lt (w n : ℕ) : ∀ d ∈ padded w n, d < 10 := by
  intro d hd
  unfold padded at hd
  rcases List.mem_append.1 hd with h | h
  · have := List.eq_of_mem_replicate h; omega
  · exact decimal_lt n d h

theorem decimal_length (n : ℕ) : (decimal n).length = Nat.log 10 n + 1 := by
  unfold decimal
  split_ifs with h
  · subst h; simp
  · rw [List.length_reverse, Nat.length_digits 10 n (by norm_num) h]

theorem padded_length (w n : ℕ) : (padded w n).length = max w (Nat.log 10 n + 1) := by
  unfold padded
  rw [List.length_append, List.length_replicate, decimal_length]; omega

theorem digitChar_lt {a b : ℕ} (ha : a < 10) (hb : b < 10) :
    digitChar a < digitChar b ↔ a < b := by
  have h : ∀ a b : Fin 10, digitChar a.1 < digitChar b.1 ↔ a.1 < b.1 := by decide
  exact h ⟨a, ha⟩ ⟨b, hb⟩

theorem digitChar_inj {a b : ℕ} (ha : a < 10) (hb : b < 10) :
    digitChar a = digitChar b ↔ a = b := by
  have h : ∀ a b : Fin 10, digitChar a.1 = digitChar b.1 ↔ a.1 = b.1 := by decide
  exact h ⟨a, ha⟩ ⟨b, hb⟩

theorem beVal_lt_pow (l : List ℕ) (h : ∀ d ∈ l, d < 10) : beVal l < 10 ^ l.length := by
  induction l with
  | nil => simp [beVal]
  | cons d ds ih =>
    have h1 := ih (fun x hx => h x (List.mem_cons_of_mem _ hx))
    have h2 : d < 10 := h d List.mem_cons_self
    simp only [beVal, List.length_cons, pow_succ]
    have : d * 10 ^ ds.length ≤ 9 * 10 ^ ds.length := Nat.mul_le_mul_right _ (by omega)
    omega

theorem map_digitChar_inj (a b : List ℕ) (ha : ∀ d ∈ a, d < 10) (hb : ∀ d ∈ b, d < 10)
    (h : a.map digitChar = b.map digitChar) : a = b := by
  induction a generalizing b with
  | nil => cases b with
    | nil => rfl
    | cons => simp at h
  | cons x xs ih =>
    cases b with
    | nil => simp at h
    | cons y ys =>
      simp only [List.map_cons, List.cons.injEq] at h
      rw [(digitChar_inj (ha x List.mem_cons_self) (hb y List.mem_cons_self)).1 h.1,
        ih ys (fun d hd => ha d (List.mem_cons_of_mem _ hd))
          (fun d hd => hb d (List.mem_cons_of_mem _ hd)) h.2]

theorem lex_digits_iff (a b : List ℕ) (hl : a.length = b.length) (ha : ∀ d ∈ a, d < 10)
    (hb : ∀ d ∈ b, d < 10) (r : List Char) :
    a.map digitChar ++ r < b.map digitChar ++ r ↔ beVal a < beVal b := by
  induction a generalizing b with
  | nil =>
    cases b with
    | nil => simp [beVal]
    | cons => simp at hl
  | cons x xs ih =>
    cases b with
    | nil => simp at hl
    | cons y ys =>
      simp only [List.length_cons, Nat.add_right_cancel_iff] at hl
      have hx := ha x List.mem_cons_self
      have hy := hb y List.mem_cons_self
      have hxs := fun d hd => ha d (List.mem_cons_of_mem x hd)
      have hys := fun d hd => hb d (List.mem_cons_of_mem y hd)
      have h1 := beVal_lt_pow xs hxs
      have h2 := beVal_lt_pow ys hys
      have ih' := ih ys hl hxs hys
      simp only [List.map_cons, List.cons_append, List.cons_lt_cons_iff, digitChar_lt hx hy,
        digitChar_inj hx hy, ih', beVal, hl]
      rw [hl] at h1
      constructor
      · rintro (h | ⟨rfl, h⟩)
        · have : (x + 1) * 10 ^ ys.length ≤ y * 10 ^ ys.length := Nat.mul_le_mul_right _ h
          rw [Nat.add_mul, Nat.one_mul] at this
          omega
        · omega
      · intro h
        rcases Nat.lt_trichotomy x y with hlt | heq | hgt
        · exact Or.inl hlt
        · subst heq; exact Or.inr ⟨rfl, by omega⟩
        · have : (y + 1) * 10 ^ ys.length ≤ x * 10 ^ ys.length := Nat.mul_le_mul_right _ hgt
          rw [Nat.add_mul, Nat.one_mul] at this
          omega

theorem append_left_lt (p a b : List Char) : p ++ a < p ++ b ↔ a < b := by
  induction p with
  | nil => simp
  | cons x xs ih => simp [List.cons_append, ih]

end RDy
