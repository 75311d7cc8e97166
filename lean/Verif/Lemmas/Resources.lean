import Verif.Model.Resources
import Mathlib.Tactic

/-!
# Following the pointers of a program without running it

An interpreter for the commands of `Model/Resources` that only records which slots own a reference, which
point to an object kept alive by another one, which are stale, and how many references no slot remembers.
`Sound` relates its states to heaps; `Abs.sound` says that a program accepted by the interpreter has no
undefined behaviour and leaves as many references as the interpreter says.  This is a device of the proofs.
-/

namespace RDy

/-- Slots that own a reference, slots whose object is that of another slot or is kept by it, slots that may
point anywhere (all other slots are `NULL`), and the number of references that no slot owns. -/
structure Abs (σ : Type) where
  own : List σ
  held : List (σ × σ)
  stale : List σ
  leaks : ℕ
  deriving DecidableEq

section
variable {σ : Type} [DecidableEq σ]

/-- The slot `x` is `NULL`. -/
def Abs.isNull (a : Abs σ) (x : σ) : Bool :=
  !(decide (x ∈ a.own)) && !(decide (x ∈ a.stale)) && a.held.all fun p => decide (p.1 ≠ x)

/-- The slot `x` becomes `NULL`; what its object kept may not exist any more. -/
def Abs.forget (a : Abs σ) (x : σ) : Abs σ :=
  { own := a.own.filter fun y => decide (y ≠ x)
    held := a.held.filter fun p => decide (p.1 ≠ x) && decide (p.2 ≠ x)
    stale := (a.stale.filter fun y => decide (y ≠ x)) ++
      ((a.held.filter fun p => decide (p.2 = x) && decide (p.1 ≠ x)).map Prod.fst)
    leaks := a.leaks }

/-- The same, where the reference is not given up. -/
def Abs.lose (a : Abs σ) (x : σ) : Abs σ :=
  { a.forget x with leaks := a.leaks + if x ∈ a.own then 1 else 0 }

/-- One command. `none`: not accepted. -/
def Abs.exec (a : Abs σ) : Cmd σ → Option (Abs σ)
  | .create x => some { a.lose x with own := x :: (a.lose x).own }
  | .destroy x => if x ∈ a.own then some (a.forget x) else if a.isNull x then some a else none
  | .copy x y =>
      if x = y then none
      else if x ∈ a.own then some { a.lose y with held := (y, x) :: (a.lose y).held }
      else if a.isNull x then some (a.lose y) else some { a.lose y with stale := y :: (a.lose y).stale }
  | .move x y =>
      if x ∈ a.own ∧ x ≠ y ∧ y ∉ a.own then some { (a.forget y).forget x with own := y :: ((a.forget y).forget x).own }
      else none
  | .borrow x y h =>
      if x ∈ a.own ∧ h ∈ a.own ∧ y ∉ a.own then some { a.forget y with held := (y, h) :: (a.forget y).held }
      else none
  | .clear x => some (a.lose x)
  | .use x => if x ∈ a.own ∨ (a.held.any fun p => decide (p.1 = x)) = true then some a else none

/-- A program. -/
def Abs.run (a : Abs σ) : List (Cmd σ) → Option (Abs σ)
  | [] => some a
  | c :: p =>
      match a.exec c with
      | none => none
      | some b => b.run p

/-- The heap `s` is as `a` says. -/
structure Sound (a : Abs σ) (s : Heap σ) : Prop where
  nodup : a.own.Nodup
  owned_nodup : s.owned.Nodup
  fresh : ∀ i ∈ s.owned, i < s.next
  count : s.owned.length = a.own.length + a.leaks
  own : ∀ x ∈ a.own, ∃ i, s.ptr x = some i ∧ i ∈ s.owned
  inj : ∀ x ∈ a.own, ∀ y ∈ a.own, s.ptr x = s.ptr y → x = y
  null : ∀ x, a.isNull x = true → s.ptr x = none
  held : ∀ p ∈ a.held, p.2 ∈ a.own ∧ ∃ i j, s.ptr p.1 = some i ∧ s.ptr p.2 = some j ∧ (i = j ∨ i ∈ s.holds j)

theorem isNull_iff (a : Abs σ) (x : σ) :
    a.isNull x = true ↔ x ∉ a.own ∧ x ∉ a.stale ∧ ∀ p ∈ a.held, p.1 ≠ x := by
  simp only [Abs.isNull, Bool.and_eq_true, Bool.not_eq_true', decide_eq_false_iff_not, List.all_eq_true,
    decide_eq_true_eq, and_assoc]

theorem mem_forget_own (a : Abs σ) (x y : σ) : y ∈ (a.forget x).own ↔ y ∈ a.own ∧ y ≠ x := by
  simp [Abs.forget]

theorem mem_forget_held (a : Abs σ) (x : σ) (p : σ × σ) :
    p ∈ (a.forget x).held ↔ p ∈ a.held ∧ p.1 ≠ x ∧ p.2 ≠ x := by
  simp [Abs.forget]

theorem mem_forget_stale (a : Abs σ) (x y : σ) :
    y ∈ (a.forget x).stale ↔ (y ∈ a.stale ∧ y ≠ x) ∨ (y ≠ x ∧ ∃ p ∈ a.held, p.1 = y ∧ p.2 = x) := by
  simp only [Abs.forget, List.mem_append, List.mem_filter, List.mem_map, decide_eq_true_eq, Bool.and_eq_true]
  constructor
  · rintro (h | ⟨p, ⟨hp, h2, h1⟩, rfl⟩)
    · exact Or.inl h
    · exact Or.inr ⟨h1, p, hp, rfl, h2⟩
  · rintro (h | ⟨h1, p, hp, rfl, h2⟩)
    · exact Or.inl h
    · exact Or.inr ⟨p, ⟨hp, h2, h1⟩, rfl⟩

/-- A slot other than `x` that is `NULL` after `x` was forgotten was `NULL` before. -/
theorem isNull_forget (a : Abs σ) (x y : σ) (h : y ≠ x) (hn : (a.forget x).isNull y = true) : a.isNull y = true := by
  rw [isNull_iff] at hn ⊢
  obtain ⟨h1, h2, h3⟩ := hn
  rw [mem_forget_own] at h1
  rw [mem_forget_stale] at h2
  refine ⟨fun g => h1 ⟨g, h⟩, fun g => h2 (Or.inl ⟨g, h⟩), fun p hp g => ?_⟩
  by_cases hx : p.2 = x
  · exact h2 (Or.inr ⟨h, p, hp, g, hx⟩)
  · exact h3 p ((mem_forget_held a x p).2 ⟨hp, g ▸ h, hx⟩) g

theorem filter_length (l : List σ) (x : σ) (h : l.Nodup) :
    (l.filter fun y => decide (y ≠ x)).length + (if x ∈ l then 1 else 0) = l.length := by
  have e : (l.filter fun y => decide (y ≠ x)) = l.erase x := by
    rw [h.erase_eq_filter]
    apply List.filter_congr
    intro y _
    by_cases hy : y = x
    · simp [hy]
    · simp [hy]
  rw [e]
  by_cases hx : x ∈ l
  · rw [if_pos hx, List.length_erase_of_mem hx]
    have := List.length_pos_of_mem hx
    omega
  · rw [if_neg hx, List.erase_of_not_mem hx]; rfl

/-- Giving the slot `x` any other value, the reference it may have owned being lost: all that `Sound` says
of the other slots stays. -/
theorem Sound.lose {a : Abs σ} {s : Heap σ} (h : Sound a s) (x : σ) :
    Sound (a.lose x) { s with ptr := Function.update s.ptr x none } := by
  refine ⟨?_, h.owned_nodup, h.fresh, ?_, ?_, ?_, ?_, ?_⟩
  · exact h.nodup.filter _
  · have := filter_length a.own x h.nodup
    show s.owned.length = (a.own.filter fun y => decide (y ≠ x)).length + (a.leaks + _)
    rw [h.count]; omega
  · intro y hy
    obtain ⟨g1, g2⟩ := (mem_forget_own a x y).1 hy
    obtain ⟨i, hi⟩ := h.own y g1
    exact ⟨i, by simpa [Function.update_of_ne g2] using hi⟩
  · intro y hy z hz e
    obtain ⟨g1, g2⟩ := (mem_forget_own a x y).1 hy
    obtain ⟨k1, k2⟩ := (mem_forget_own a x z).1 hz
    simp only [Function.update_of_ne g2, Function.update_of_ne k2] at e
    exact h.inj y g1 z k1 e
  · intro y hy
    by_cases e : y = x
    · subst e; simp
    · simp only [Function.update_of_ne e]
      exact h.null y (isNull_forget a x y e hy)
  · intro p hp
    obtain ⟨g0, g1, g2⟩ := (mem_forget_held a x p).1 hp
    obtain ⟨k, i, j, k1, k2, k3⟩ := h.held p g0
    exact ⟨(mem_forget_own a x p.2).2 ⟨k, g2⟩, i, j, by simpa [Function.update_of_ne g1] using k1,
      by simpa [Function.update_of_ne g2] using k2, k3⟩

/-- Giving up the reference of a slot. -/
theorem Sound.destroy {a : Abs σ} {s : Heap σ} (h : Sound a s) (x : σ) (hx : x ∈ a.own) (i : ℕ)
    (hi : s.ptr x = some i) (hm : i ∈ s.owned) :
    Sound (a.forget x) { s with ptr := Function.update s.ptr x none, owned := s.owned.erase i } := by
  have hl := h.lose x
  refine ⟨hl.nodup, h.owned_nodup.erase i, fun k hk => h.fresh k (List.mem_of_mem_erase hk), ?_, ?_, hl.inj,
    hl.null, hl.held⟩
  · have h1 := filter_length a.own x h.nodup
    rw [if_pos hx] at h1
    have h2 := List.length_pos_of_mem hm
    show (s.owned.erase i).length = (a.own.filter fun y => decide (y ≠ x)).length + a.leaks
    rw [List.length_erase_of_mem hm, h.count]
    have := h.count
    omega
  · intro y hy
    obtain ⟨g1, g2⟩ := (mem_forget_own a x y).1 hy
    obtain ⟨k, hk, hk'⟩ := h.own y g1
    refine ⟨k, by simpa [Function.update_of_ne g2] using hk, ?_⟩
    refine (List.mem_erase_of_ne ?_).2 hk'
    rintro rfl
    exact g2 (h.inj y g1 x hx (hk.trans hi.symm))

theorem Sound.create {a : Abs σ} {s : Heap σ} (h : Sound a s) (x : σ) :
    Sound { a.lose x with own := x :: (a.lose x).own }
      { s with ptr := Function.update s.ptr x (some s.next), owned := s.next :: s.owned, next := s.next + 1 } := by
  have hl := h.lose x
  have hfresh : s.next ∉ s.owned := fun g => lt_irrefl _ (h.fresh _ g)
  have hne : ∀ y ∈ (a.lose x).own, y ≠ x := fun y hy => ((mem_forget_own a x y).1 hy).2
  refine ⟨?_, List.nodup_cons.2 ⟨hfresh, h.owned_nodup⟩, ?_, ?_, ?_, ?_, ?_, ?_⟩
  · exact List.nodup_cons.2 ⟨fun g => hne x g rfl, hl.nodup⟩
  · intro i hi
    rcases List.mem_cons.1 hi with rfl | hi
    · exact Nat.lt_succ_self _
    · exact Nat.lt_succ_of_lt (h.fresh i hi)
  · have := hl.count
    simp only [List.length_cons] at this ⊢
    omega
  · intro y hy
    rcases List.mem_cons.1 hy with rfl | hy
    · exact ⟨s.next, by simp, by simp⟩
    · obtain ⟨i, hi, hm⟩ := hl.own y hy
      refine ⟨i, ?_, List.mem_cons_of_mem _ hm⟩
      simpa [Function.update_of_ne (hne y hy)] using hi
  · intro y hy z hz e
    have key : ∀ y ∈ (a.lose x).own, s.ptr y ≠ some s.next := by
      intro y hy e
      obtain ⟨i, hi, hm⟩ := h.own y ((mem_forget_own a x y).1 hy).1
      rw [hi, Option.some.injEq] at e
      exact hfresh (e ▸ hm)
    rcases List.mem_cons.1 hy with rfl | hy <;> rcases List.mem_cons.1 hz with rfl | hz
    · rfl
    · simp only [Function.update_self, Function.update_of_ne (hne z hz)] at e
      exact absurd e.symm (key z hz)
    · simp only [Function.update_self, Function.update_of_ne (hne y hy)] at e
      exact absurd e (key y hy)
    · simp only [Function.update_of_ne (hne z hz), Function.update_of_ne (hne y hy)] at e
      exact h.inj y ((mem_forget_own a x y).1 hy).1 z ((mem_forget_own a x z).1 hz).1 e
  · intro y hy
    rw [isNull_iff] at hy
    have e : y ≠ x := by rintro rfl; exact hy.1 (by simp)
    simp only [Function.update_of_ne e]
    refine h.null y (isNull_forget a x y e ?_)
    rw [isNull_iff]
    exact ⟨fun g => hy.1 (List.mem_cons_of_mem _ g), hy.2.1, hy.2.2⟩
  · intro p hp
    obtain ⟨g0, g1, g2⟩ := (mem_forget_held a x p).1 hp
    obtain ⟨k, i, j, k1, k2, k3⟩ := h.held p g0
    exact ⟨List.mem_cons_of_mem _ ((mem_forget_own a x p.2).2 ⟨k, g2⟩), i, j,
      by simpa [Function.update_of_ne g1] using k1, by simpa [Function.update_of_ne g2] using k2, k3⟩

/-- Whatever the slot `y` is set to, `Sound` holds with `y` stale. -/
theorem Sound.stale {a : Abs σ} {s : Heap σ} (h : Sound a s) (y : σ) (v : Option ℕ) :
    Sound { a.lose y with stale := y :: (a.lose y).stale } { s with ptr := Function.update s.ptr y v } := by
  have hl := h.lose y
  have hne : ∀ z ∈ (a.lose y).own, z ≠ y := fun z hz => ((mem_forget_own a y z).1 hz).2
  refine ⟨hl.nodup, h.owned_nodup, h.fresh, hl.count, ?_, ?_, ?_, ?_⟩
  · intro z hz
    obtain ⟨i, hi, hm⟩ := hl.own z hz
    exact ⟨i, by simpa [Function.update_of_ne (hne z hz)] using hi, hm⟩
  · intro z hz w hw e
    refine hl.inj z hz w hw ?_
    simpa [Function.update_of_ne (hne z hz), Function.update_of_ne (hne w hw)] using e
  · intro z hz
    rw [isNull_iff] at hz
    have e : z ≠ y := by rintro rfl; exact hz.2.1 (by simp)
    simp only [Function.update_of_ne e]
    refine h.null z (isNull_forget a y z e ?_)
    rw [isNull_iff]
    exact ⟨hz.1, fun g => hz.2.1 (List.mem_cons_of_mem _ g), hz.2.2⟩
  · intro p hp
    obtain ⟨g0, g1, g2⟩ := (mem_forget_held a y p).1 hp
    obtain ⟨k, i, j, k1, k2, k3⟩ := h.held p g0
    exact ⟨(mem_forget_own a y p.2).2 ⟨k, g2⟩, i, j, by simpa [Function.update_of_ne g1] using k1,
      by simpa [Function.update_of_ne g2] using k2, k3⟩

/-- A copy of a pointer can be used as long as its origin is not changed. -/
theorem Sound.copy {a : Abs σ} {s : Heap σ} (h : Sound a s) (x y : σ) (hx : x ∈ a.own) (hxy : x ≠ y) :
    Sound { a.lose y with held := (y, x) :: (a.lose y).held } { s with ptr := Function.update s.ptr y (s.ptr x) } := by
  have hl := h.lose y
  have hne : ∀ z ∈ (a.lose y).own, z ≠ y := fun z hz => ((mem_forget_own a y z).1 hz).2
  refine ⟨hl.nodup, h.owned_nodup, h.fresh, hl.count, ?_, ?_, ?_, ?_⟩
  · intro z hz
    obtain ⟨i, hi, hm⟩ := hl.own z hz
    exact ⟨i, by simpa [Function.update_of_ne (hne z hz)] using hi, hm⟩
  · intro z hz w hw e
    refine hl.inj z hz w hw ?_
    simpa [Function.update_of_ne (hne z hz), Function.update_of_ne (hne w hw)] using e
  · intro z hz
    rw [isNull_iff] at hz
    have e : z ≠ y := fun e => hz.2.2 (y, x) (by simp) e.symm
    simp only [Function.update_of_ne e]
    refine h.null z (isNull_forget a y z e ?_)
    rw [isNull_iff]
    exact ⟨hz.1, hz.2.1, fun p hp => hz.2.2 p (List.mem_cons_of_mem _ hp)⟩
  · intro p hp
    rcases List.mem_cons.1 hp with rfl | hp
    · obtain ⟨i, hi, -⟩ := h.own x hx
      exact ⟨(mem_forget_own a y x).2 ⟨hx, hxy⟩, i, i, by simpa using hi, by simpa [Function.update_of_ne hxy] using hi,
        Or.inl rfl⟩
    · obtain ⟨g0, g1, g2⟩ := (mem_forget_held a y p).1 hp
      obtain ⟨k, i, j, k1, k2, k3⟩ := h.held p g0
      exact ⟨(mem_forget_own a y p.2).2 ⟨k, g2⟩, i, j, by simpa [Function.update_of_ne g1] using k1,
        by simpa [Function.update_of_ne g2] using k2, k3⟩

theorem lose_eq_forget (a : Abs σ) (x : σ) (h : x ∉ a.own) : a.lose x = a.forget x := by
  unfold Abs.lose; rw [if_neg h]; rfl

theorem Sound.move {a : Abs σ} {s : Heap σ} (h : Sound a s) (x y : σ) (hx : x ∈ a.own) (hxy : x ≠ y) (hy : y ∉ a.own) :
    Sound { (a.forget y).forget x with own := y :: ((a.forget y).forget x).own }
      { s with ptr := Function.update (Function.update s.ptr y (s.ptr x)) x none } := by
  obtain ⟨i, hi, hm⟩ := h.own x hx
  have hl := h.lose y
  rw [lose_eq_forget a y hy] at hl
  have hx' : x ∈ (a.forget y).own := (mem_forget_own a y x).2 ⟨hx, hxy⟩
  have hi' : Function.update s.ptr y none x = some i := by rw [Function.update_of_ne hxy, hi]
  have hd := hl.destroy x hx' i hi' hm
  have hnx : ∀ z ∈ ((a.forget y).forget x).own, z ≠ x ∧ z ≠ y := fun z hz =>
    ⟨((mem_forget_own _ x z).1 hz).2, ((mem_forget_own _ y z).1 ((mem_forget_own _ x z).1 hz).1).2⟩
  refine ⟨List.nodup_cons.2 ⟨fun g => (hnx y g).2 rfl, hd.nodup⟩, h.owned_nodup, h.fresh, ?_, ?_, ?_, ?_, ?_⟩
  · have h1 := hd.count
    have h2 := List.length_pos_of_mem hm
    simp only [List.length_erase_of_mem hm, List.length_cons] at h1 ⊢
    omega
  · intro z hz
    rcases List.mem_cons.1 hz with rfl | hz
    · exact ⟨i, by simp [Function.update_of_ne hxy.symm, hi], hm⟩
    · obtain ⟨k, hk, hk'⟩ := hd.own z hz
      obtain ⟨g1, g2⟩ := hnx z hz
      refine ⟨k, ?_, List.mem_of_mem_erase hk'⟩
      simpa [Function.update_of_ne g1, Function.update_of_ne g2] using hk
  · have key : ∀ z ∈ ((a.forget y).forget x).own, s.ptr z ≠ some i := by
      intro z hz e
      have : z ∈ a.own := ((mem_forget_own _ y z).1 ((mem_forget_own _ x z).1 hz).1).1
      exact (hnx z hz).1 (h.inj z this x hx (e.trans hi.symm))
    intro z hz w hw e
    rcases List.mem_cons.1 hz with rfl | hz <;> rcases List.mem_cons.1 hw with rfl | hw
    · rfl
    · obtain ⟨g1, g2⟩ := hnx w hw
      simp only [Function.update_of_ne g1, Function.update_of_ne g2, Function.update_of_ne hxy.symm,
        Function.update_self, hi] at e
      exact absurd e.symm (key w hw)
    · obtain ⟨g1, g2⟩ := hnx z hz
      simp only [Function.update_of_ne g1, Function.update_of_ne g2, Function.update_of_ne hxy.symm,
        Function.update_self, hi] at e
      exact absurd e (key z hz)
    · obtain ⟨g1, g2⟩ := hnx w hw
      obtain ⟨k1, k2⟩ := hnx z hz
      refine hd.inj z hz w hw ?_
      simpa [Function.update_of_ne g1, Function.update_of_ne g2, Function.update_of_ne k1, Function.update_of_ne k2] using e
  · intro z hz
    rw [isNull_iff] at hz
    have e : z ≠ y := by rintro rfl; exact hz.1 (by simp)
    have := hd.null z (by rw [isNull_iff]; exact ⟨fun g => hz.1 (List.mem_cons_of_mem _ g), hz.2.1, hz.2.2⟩)
    by_cases ex : z = x
    · subst ex; simp
    · simpa [Function.update_of_ne ex, Function.update_of_ne e] using this
  · intro p hp
    obtain ⟨k, i', j, k1, k2, k3⟩ := hd.held p hp
    obtain ⟨g0, g1, g2⟩ := (mem_forget_held _ x p).1 hp
    obtain ⟨-, l1, l2⟩ := (mem_forget_held _ y p).1 g0
    refine ⟨List.mem_cons_of_mem _ k, i', j, ?_, ?_, k3⟩
    · simpa [Function.update_of_ne g1, Function.update_of_ne l1] using k1
    · simpa [Function.update_of_ne g2, Function.update_of_ne l2] using k2

theorem Sound.borrow {a : Abs σ} {s : Heap σ} (h : Sound a s) (x y k : σ) (hk : k ∈ a.own)
    (hy : y ∉ a.own) (i j : ℕ) (_hi : s.ptr x = some i) (hj : s.ptr k = some j) :
    Sound { a.forget y with held := (y, k) :: (a.forget y).held }
      { s with ptr := Function.update s.ptr y (some i), holds := Function.update s.holds j (i :: s.holds j) } := by
  have hl := h.lose y
  rw [lose_eq_forget a y hy] at hl
  have hky : k ≠ y := fun e => hy (e ▸ hk)
  have hne : ∀ z ∈ (a.forget y).own, z ≠ y := fun z hz => ((mem_forget_own a y z).1 hz).2
  refine ⟨hl.nodup, h.owned_nodup, h.fresh, hl.count, ?_, ?_, ?_, ?_⟩
  · intro z hz
    obtain ⟨l, hl', hm⟩ := hl.own z hz
    exact ⟨l, by simpa [Function.update_of_ne (hne z hz)] using hl', hm⟩
  · intro z hz w hw e
    refine hl.inj z hz w hw ?_
    simpa [Function.update_of_ne (hne z hz), Function.update_of_ne (hne w hw)] using e
  · intro z hz
    rw [isNull_iff] at hz
    have e : z ≠ y := fun e => hz.2.2 (y, k) (by simp) e.symm
    simp only [Function.update_of_ne e]
    refine h.null z (isNull_forget a y z e ?_)
    rw [isNull_iff]
    exact ⟨hz.1, hz.2.1, fun p hp => hz.2.2 p (List.mem_cons_of_mem _ hp)⟩
  · have grow : ∀ l m, l ∈ s.holds m → l ∈ Function.update s.holds j (i :: s.holds j) m := by
      intro l m hlm
      by_cases e : m = j
      · subst e; simpa using Or.inr hlm
      · simpa [Function.update_of_ne e] using hlm
    intro p hp
    rcases List.mem_cons.1 hp with rfl | hp
    · refine ⟨(mem_forget_own a y k).2 ⟨hk, hky⟩, i, j, by simp, ?_, Or.inr (by simp)⟩
      simpa [Function.update_of_ne hky] using hj
    · obtain ⟨g0, g1, g2⟩ := (mem_forget_held a y p).1 hp
      obtain ⟨q, i', j', k1, k2, k3⟩ := h.held p g0
      exact ⟨(mem_forget_own a y p.2).2 ⟨q, g2⟩, i', j', by simpa [Function.update_of_ne g1] using k1,
        by simpa [Function.update_of_ne g2] using k2, k3.imp id (grow _ _)⟩

/-- A command accepted by the interpreter is defined. -/
theorem Abs.exec_sound {a b : Abs σ} {s : Heap σ} (h : Sound a s) (c : Cmd σ) (hc : a.exec c = some b) :
    ∃ t, s.exec c = some t ∧ Sound b t := by
  cases c with
  | create x =>
    rw [Abs.exec, Option.some.injEq] at hc
    subst hc
    exact ⟨_, rfl, h.create x⟩
  | destroy x =>
    unfold Abs.exec at hc
    dsimp only at hc
    by_cases hx : x ∈ a.own
    · rw [if_pos hx, Option.some.injEq] at hc
      subst hc
      obtain ⟨i, hi, hm⟩ := h.own x hx
      refine ⟨_, ?_, h.destroy x hx i hi hm⟩
      unfold Heap.exec
      dsimp only
      rw [hi]
      dsimp only
      rw [if_pos hm]
    · rw [if_neg hx] at hc
      by_cases hn : a.isNull x = true
      · rw [if_pos hn, Option.some.injEq] at hc
        subst hc
        refine ⟨s, ?_, h⟩
        unfold Heap.exec
        dsimp only
        rw [h.null x hn]
      · rw [if_neg hn] at hc; exact absurd hc (by simp)
  | copy x y =>
    unfold Abs.exec at hc
    dsimp only at hc
    by_cases hxy : x = y
    · rw [if_pos hxy] at hc; exact absurd hc (by simp)
    · rw [if_neg hxy] at hc
      by_cases hx : x ∈ a.own
      · rw [if_pos hx, Option.some.injEq] at hc
        subst hc
        exact ⟨_, rfl, h.copy x y hx hxy⟩
      rw [if_neg hx] at hc
      by_cases hn : a.isNull x = true
      · rw [if_pos hn, Option.some.injEq] at hc
        subst hc
        refine ⟨_, rfl, ?_⟩
        rw [h.null x hn]
        exact h.lose y
      · rw [if_neg hn, Option.some.injEq] at hc
        subst hc
        exact ⟨_, rfl, h.stale y _⟩
  | move x y =>
    unfold Abs.exec at hc
    dsimp only at hc
    by_cases hx : x ∈ a.own ∧ x ≠ y ∧ y ∉ a.own
    · rw [if_pos hx, Option.some.injEq] at hc
      subst hc
      exact ⟨_, rfl, h.move x y hx.1 hx.2.1 hx.2.2⟩
    · rw [if_neg hx] at hc; exact absurd hc (by simp)
  | borrow x y k =>
    unfold Abs.exec at hc
    dsimp only at hc
    by_cases hx : x ∈ a.own ∧ k ∈ a.own ∧ y ∉ a.own
    · rw [if_pos hx, Option.some.injEq] at hc
      subst hc
      obtain ⟨i, hi, -⟩ := h.own x hx.1
      obtain ⟨j, hj, -⟩ := h.own k hx.2.1
      refine ⟨_, ?_, h.borrow x y k hx.2.1 hx.2.2 i j hi hj⟩
      unfold Heap.exec
      dsimp only
      rw [hi, hj]
    · rw [if_neg hx] at hc; exact absurd hc (by simp)
  | clear x =>
    rw [Abs.exec, Option.some.injEq] at hc
    subst hc
    exact ⟨_, rfl, h.lose x⟩
  | use x =>
    unfold Abs.exec at hc
    dsimp only at hc
    by_cases hx : x ∈ a.own ∨ (a.held.any fun p => decide (p.1 = x)) = true
    · rw [if_pos hx, Option.some.injEq] at hc
      subst hc
      have key : ∃ i, s.ptr x = some i ∧ s.Alive i := by
        rcases hx with hx | hx
        · obtain ⟨i, hi, hm⟩ := h.own x hx
          exact ⟨i, hi, .owned hm⟩
        · obtain ⟨p, hp, e⟩ := List.any_eq_true.1 hx
          rw [decide_eq_true_eq] at e
          subst e
          obtain ⟨g, i, j, h1, h2, h3⟩ := h.held p hp
          obtain ⟨j', h4, h5⟩ := h.own p.2 g
          rw [h2, Option.some.injEq] at h4
          rcases h3 with h3 | h3
          · exact ⟨i, h1, .owned (h3 ▸ h4 ▸ h5)⟩
          · exact ⟨i, h1, .held (.owned (h4 ▸ h5)) h3⟩
      obtain ⟨i, hi, hal⟩ := key
      refine ⟨s, ?_, h⟩
      unfold Heap.exec
      dsimp only
      rw [hi]
      dsimp only
      rw [if_pos hal]
    · rw [if_neg hx] at hc; exact absurd hc (by simp)

/-- A program accepted by the interpreter is defined. -/
theorem Abs.sound (p : List (Cmd σ)) {a b : Abs σ} {s : Heap σ} (h : Sound a s) (hp : a.run p = some b) :
    ∃ t, s.run p = some t ∧ Sound b t := by
  induction p generalizing a s with
  | nil =>
    rw [Abs.run, Option.some.injEq] at hp
    exact ⟨s, rfl, hp ▸ h⟩
  | cons c p ih =>
    unfold Abs.run at hp
    rcases hc : a.exec c with _ | b'
    · rw [hc] at hp; exact absurd hp (by simp)
    · rw [hc] at hp
      dsimp only at hp
      obtain ⟨t, ht, h'⟩ := Abs.exec_sound h c hc
      obtain ⟨t', ht', h''⟩ := ih h' hp
      refine ⟨t', ?_, h''⟩
      unfold Heap.run
      rw [ht]
      exact ht'

theorem Sound.empty : Sound (⟨[], [], [], 0⟩ : Abs σ) (Heap.empty : Heap σ) :=
  ⟨by simp, by simp [Heap.empty], by simp [Heap.empty], by simp [Heap.empty], by simp, by simp, fun _ _ => rfl,
    by simp⟩

/-- The order of the lists does not matter. -/
theorem Sound.perm {a b : Abs σ} {s : Heap σ} (h : Sound a s) (ho : a.own.Perm b.own) (hh : a.held.Perm b.held)
    (hs : a.stale ⊆ b.stale) (hl : a.leaks = b.leaks) : Sound b s := by
  refine ⟨ho.nodup_iff.1 h.nodup, h.owned_nodup, h.fresh, ?_, fun x hx => h.own x (ho.mem_iff.2 hx),
    fun x hx y hy => h.inj x (ho.mem_iff.2 hx) y (ho.mem_iff.2 hy), ?_, ?_⟩
  · rw [h.count, ho.length_eq, hl]
  · intro x hx
    apply h.null
    rw [isNull_iff] at hx ⊢
    exact ⟨fun g => hx.1 (ho.mem_iff.1 g), fun g => hx.2.1 (hs g), fun p hp => hx.2.2 p (hh.mem_iff.1 hp)⟩
  · intro p hp
    obtain ⟨g, r⟩ := h.held p (hh.mem_iff.2 hp)
    exact ⟨ho.mem_iff.1 g, r⟩

theorem Abs.run_append (p q : List (Cmd σ)) (a : Abs σ) :
    a.run (p ++ q) = (a.run p).bind fun b => b.run q := by
  induction p generalizing a with
  | nil => rfl
  | cons c p ih =>
    simp only [List.cons_append, Abs.run]
    rcases a.exec c with _ | b
    · rfl
    · exact ih b

theorem Heap.run_append (p q : List (Cmd σ)) (s : Heap σ) :
    s.run (p ++ q) = (s.run p).bind fun t => t.run q := by
  induction p generalizing s with
  | nil => rfl
  | cons c p ih =>
    simp only [List.cons_append, Heap.run]
    rcases s.exec c with _ | b
    · rfl
    · exact ih b

/-- The number of lost references does not influence what is accepted. -/
def Abs.add (a : Abs σ) (n : ℕ) : Abs σ := { a with leaks := a.leaks + n }

theorem Abs.lose_add (a : Abs σ) (n : ℕ) (x : σ) : (a.add n).lose x = (a.lose x).add n := by
  have : a.leaks + n + (if x ∈ a.own then 1 else 0) = a.leaks + (if x ∈ a.own then 1 else 0) + n := by omega
  show (⟨_, _, _, a.leaks + n + if x ∈ a.own then 1 else 0⟩ : Abs σ) = ⟨_, _, _, a.leaks + (if x ∈ a.own then 1 else 0) + n⟩
  rw [this]
  rfl

theorem Abs.exec_add (a : Abs σ) (n : ℕ) (c : Cmd σ) : (a.add n).exec c = (a.exec c).map fun b => b.add n := by
  cases c with
  | create x => simp only [Abs.exec, Abs.lose_add, Option.map_some]; rfl
  | destroy x =>
    unfold Abs.exec
    dsimp only
    by_cases h : x ∈ a.own
    · rw [if_pos h, if_pos (show x ∈ (a.add n).own from h)]; rfl
    · rw [if_neg h, if_neg (show x ∉ (a.add n).own from h)]
      by_cases h' : a.isNull x = true
      · rw [if_pos h', if_pos (show (a.add n).isNull x = true from h')]; rfl
      · rw [if_neg h', if_neg (show ¬ (a.add n).isNull x = true from h')]; rfl
  | copy x y =>
    unfold Abs.exec
    dsimp only
    by_cases h : x = y
    · rw [if_pos h, if_pos h]; rfl
    · rw [if_neg h, if_neg h]
      by_cases ho : x ∈ a.own
      · rw [if_pos ho, if_pos (show x ∈ (a.add n).own from ho)]
        simp only [Abs.lose_add, Option.map_some]; rfl
      rw [if_neg ho, if_neg (show x ∉ (a.add n).own from ho)]
      by_cases h' : a.isNull x = true
      · rw [if_pos h', if_pos (show (a.add n).isNull x = true from h')]
        simp only [Abs.lose_add, Option.map_some]
      · rw [if_neg h', if_neg (show ¬ (a.add n).isNull x = true from h')]
        simp only [Abs.lose_add, Option.map_some]; rfl
  | move x y =>
    unfold Abs.exec
    dsimp only
    by_cases h : x ∈ a.own ∧ x ≠ y ∧ y ∉ a.own
    · rw [if_pos h, if_pos (show x ∈ (a.add n).own ∧ x ≠ y ∧ y ∉ (a.add n).own from h)]; rfl
    · rw [if_neg h, if_neg (show ¬ (x ∈ (a.add n).own ∧ x ≠ y ∧ y ∉ (a.add n).own) from h)]; rfl
  | borrow x y k =>
    unfold Abs.exec
    dsimp only
    by_cases h : x ∈ a.own ∧ k ∈ a.own ∧ y ∉ a.own
    · rw [if_pos h, if_pos (show x ∈ (a.add n).own ∧ k ∈ (a.add n).own ∧ y ∉ (a.add n).own from h)]; rfl
    · rw [if_neg h, if_neg (show ¬ (x ∈ (a.add n).own ∧ k ∈ (a.add n).own ∧ y ∉ (a.add n).own) from h)]; rfl
  | clear x => simp only [Abs.exec, Abs.lose_add, Option.map_some]
  | use x =>
    unfold Abs.exec
    dsimp only
    by_cases h : x ∈ a.own ∨ (a.held.any fun p => decide (p.1 = x)) = true
    · rw [if_pos h, if_pos (show x ∈ (a.add n).own ∨ ((a.add n).held.any fun p => decide (p.1 = x)) = true from h)]
      rfl
    · rw [if_neg h, if_neg (show ¬ (x ∈ (a.add n).own ∨ ((a.add n).held.any fun p => decide (p.1 = x)) = true) from h)]
      rfl

theorem Abs.run_add (p : List (Cmd σ)) (a : Abs σ) (n : ℕ) : (a.add n).run p = (a.run p).map fun b => b.add n := by
  induction p generalizing a with
  | nil => rfl
  | cons c p ih =>
    unfold Abs.run
    rw [Abs.exec_add]
    rcases a.exec c with _ | b
    · rfl
    · exact ih b

/-- `b` is `a` with `n` more lost references, up to the order of the lists. -/
def Abs.same (a b : Abs σ) (n : ℕ) : Bool :=
  a.own.isPerm b.own && a.held.isPerm b.held && a.stale.all (fun x => decide (x ∈ b.stale)) &&
    decide (a.leaks = b.leaks + n)

theorem Sound.same {a b : Abs σ} {s : Heap σ} (h : Sound a s) (n : ℕ) (hs : a.same b n = true) : Sound (b.add n) s := by
  unfold Abs.same at hs
  simp only [Bool.and_eq_true, List.isPerm_iff, List.all_eq_true, decide_eq_true_eq] at hs
  obtain ⟨⟨⟨h1, h2⟩, h3⟩, h4⟩ := hs
  exact h.perm h1 h2 h3 h4

/-- A program that the interpreter takes from `a` to `b` with `n` more lost references. -/
def Abs.takes (a : Abs σ) (p : List (Cmd σ)) (b : Abs σ) (n : ℕ) : Bool :=
  match a.run p with
  | none => false
  | some c => c.same b n

theorem Abs.takes_sound {a b : Abs σ} {p : List (Cmd σ)} {n : ℕ} (h : a.takes p b n = true) (m : ℕ) {s : Heap σ}
    (hs : Sound (a.add m) s) : ∃ t, s.run p = some t ∧ Sound (b.add (m + n)) t := by
  unfold Abs.takes at h
  rcases hc : a.run p with _ | c
  · rw [hc] at h; exact absurd h (by simp)
  · rw [hc] at h
    dsimp only at h
    have h1 : (a.add m).run p = some (c.add m) := by rw [Abs.run_add, hc]; rfl
    obtain ⟨t, ht, hst⟩ := Abs.sound p hs h1
    refine ⟨t, ht, ?_⟩
    have h2 : (c.add m).same b (m + n) = true := by
      unfold Abs.same at h ⊢
      simp only [Bool.and_eq_true, decide_eq_true_eq] at h ⊢
      refine ⟨h.1, ?_⟩
      show c.leaks + m = b.leaks + (m + n)
      omega
    exact hst.same _ h2

end

end RDy
