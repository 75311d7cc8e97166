import Verif.Model.OutputFields
import Verif.Lemmas.Output
import Mathlib.Tactic

/-!
C81: the fields in the output are those requested; C82: velocities and concentrations in the output.
-/

namespace RDy

/-! ### Specification: the fields a user can ask for -/

/-- the quantities of the user guide -/
inductive OKind
  | height
  | momX
  | momY
  | sed
  | velX
  | velY
  | conc
  | water
  | momXSrc
  | momYSrc
  | sedSrc
  deriving DecidableEq

instance : Fintype OKind where
  elems := {.height, .momX, .momY, .sed, .velX, .velY, .conc, .water, .momXSrc, .momYSrc, .sedSrc}
  complete := by intro x; cases x <;> decide

/-- there is one field for each sediment class -/
def OKind.perClass : OKind → Bool
  | .sed => true
  | .conc => true
  | .sedSrc => true
  | _ => false

/-- the name up to the number of the class -/
def OKind.base : OKind → Str
  | .height => "Height".toList
  | .momX => "MomentumX".toList
  | .momY => "MomentumY".toList
  | .sed => "SedimentMassPerUnitArea".toList
  | .velX => "VelocityX".toList
  | .velY => "VelocityY".toList
  | .conc => "SedimentConcentration".toList
  | .water => "WaterSource".toList
  | .momXSrc => "MomentumXSource".toList
  | .momYSrc => "MomentumYSource".toList
  | .sedSrc => "SedimentMassPerUnitArea".toList

/-- what follows the number of the class -/
def OKind.tail : OKind → Str
  | .sedSrc => "Source".toList
  | _ => []

/-- a field: a quantity, its value now or its mean, and the sediment class -/
structure OField where
  kind : OKind
  mean : Bool
  cls : ℕ

/-- the field exists with `n` sediment classes -/
def OField.Ok (n : ℕ) (f : OField) : Prop := if f.kind.perClass then f.cls < n else f.cls = 0

/-- the part of the name after the number -/
def OField.post (f : OField) : Str := f.kind.tail ++ if f.mean then "_Mean".toList else []

/-- the name of a field -/
def OField.name (f : OField) : Str :=
  f.kind.base ++ (if f.kind.perClass then (decimal f.cls).map digitChar else []) ++ f.post

/-- where the values of a field are: the vector and the component -/
def OField.source (f : OField) : OutVec × ℕ :=
  match f.kind with
  | .height => (if f.mean then .solnMean else .soln, 0)
  | .momX => (if f.mean then .solnMean else .soln, 1)
  | .momY => (if f.mean then .solnMean else .soln, 2)
  | .sed => (if f.mean then .solnMean else .soln, 3 + f.cls)
  | .velX => (if f.mean then .primMean else .prim, 1)
  | .velY => (if f.mean then .primMean else .prim, 2)
  | .conc => (if f.mean then .primMean else .prim, 3 + f.cls)
  | .water => (if f.mean then .srcMean else .src, 0)
  | .momXSrc => (if f.mean then .srcMean else .src, 1)
  | .momYSrc => (if f.mean then .srcMean else .src, 2)
  | .sedSrc => (if f.mean then .srcMean else .src, 3 + f.cls)

/-! ### Names are unambiguous -/

/-- a character that `%d` prints -/
def isDig (c : Char) : Bool := (List.range 10).any fun d => digitChar d == c

theorem isDig_digitChar {d : ℕ} (h : d < 10) : isDig (digitChar d) = true := by
  unfold isDig
  rw [List.any_eq_true]
  exact ⟨d, List.mem_range.mpr h, by simp⟩

theorem split_name {a a' d d' b b' : Str} (ha : ∀ c ∈ a, isDig c = false) (ha' : ∀ c ∈ a', isDig c = false)
    (hd : ∀ c ∈ d, isDig c = true) (hd' : ∀ c ∈ d', isDig c = true) (hb : ∀ c ∈ b, isDig c = false)
    (hb' : ∀ c ∈ b', isDig c = false) (hn : d ≠ []) (hn' : d' ≠ []) (h : a ++ d ++ b = a' ++ d' ++ b') :
    a = a' ∧ d = d' ∧ b = b' := by
  have key : ∀ {a d b : Str}, (∀ c ∈ a, isDig c = false) → (∀ c ∈ d, isDig c = true) →
      (∀ c ∈ b, isDig c = false) → d ≠ [] →
      (a ++ d ++ b).takeWhile (fun c => !isDig c) = a ∧
      ((a ++ d ++ b).dropWhile (fun c => !isDig c)).takeWhile isDig = d ∧
      ((a ++ d ++ b).dropWhile (fun c => !isDig c)).dropWhile isDig = b := by
    intro a d b ha hd hb hn
    have h1 : (a ++ d ++ b).takeWhile (fun c => !isDig c) = a := by
      rw [List.append_assoc, List.takeWhile_append_of_pos (by intro c hc; simp [ha c hc])]
      cases d with
      | nil => exact absurd rfl hn
      | cons x xs =>
        have : isDig x = true := hd x (by simp)
        rw [List.cons_append, List.takeWhile_cons_of_neg (by simp [this]), List.append_nil]
    have h2 : (a ++ d ++ b).dropWhile (fun c => !isDig c) = d ++ b := by
      rw [List.append_assoc, List.dropWhile_append_of_pos (by intro c hc; simp [ha c hc])]
      cases d with
      | nil => exact absurd rfl hn
      | cons x xs =>
        have : isDig x = true := hd x (by simp)
        rw [List.cons_append, List.dropWhile_cons_of_neg (by simp [this])]
    refine ⟨h1, ?_, ?_⟩
    · rw [h2, List.takeWhile_append_of_pos hd]
      cases b with
      | nil => simp
      | cons x xs => rw [List.takeWhile_cons_of_neg (by simp [hb x (by simp)]), List.append_nil]
    · rw [h2, List.dropWhile_append_of_pos hd]
      cases b with
      | nil => simp
      | cons x xs => rw [List.dropWhile_cons_of_neg (by simp [hb x (by simp)])]
  obtain ⟨x1, x2, x3⟩ := key ha hd hb hn
  obtain ⟨y1, y2, y3⟩ := key ha' hd' hb' hn'
  rw [h] at x1 x2 x3
  exact ⟨x1.symm.trans y1, x2.symm.trans y2, x3.symm.trans y3⟩

theorem decimal_ne_nil (n : ℕ) : decimal n ≠ [] := by
  intro h
  have := decimal_length n
  rw [h] at this
  simp at this

theorem decimal_inj {a b : ℕ} (h : (decimal a).map digitChar = (decimal b).map digitChar) : a = b := by
  have := map_digitChar_inj _ _ (decimal_lt a) (decimal_lt b) h
  rw [← beVal_decimal a, this, beVal_decimal]

theorem base_nodig : ∀ k : OKind, ∀ c ∈ k.base, isDig c = false := by decide +kernel

theorem post_nodig : ∀ (k : OKind) (m : Bool), ∀ c ∈ OField.post ⟨k, m, 0⟩, isDig c = false := by
  decide +kernel

theorem digits_dig (n : ℕ) : ∀ c ∈ (decimal n).map digitChar, isDig c = true := by
  intro c hc
  obtain ⟨d, hd, rfl⟩ := List.mem_map.mp hc
  exact isDig_digitChar (decimal_lt n d hd)

theorem shapes_indexed : ∀ (k k' : OKind) (m m' : Bool), k.perClass = true → k'.perClass = true →
    k.base = k'.base → OField.post ⟨k, m, 0⟩ = OField.post ⟨k', m', 0⟩ → k = k' ∧ m = m' := by
  decide +kernel

theorem shapes_exact : ∀ (k k' : OKind) (m m' : Bool), k.perClass = false → k'.perClass = false →
    k.base ++ OField.post ⟨k, m, 0⟩ = k'.base ++ OField.post ⟨k', m', 0⟩ → k = k' ∧ m = m' := by
  decide +kernel

/-- Different fields have different names. -/
theorem OField.name_inj {n n' : ℕ} {f g : OField} (hf : f.Ok n) (hg : g.Ok n') (h : f.name = g.name) :
    f = g := by
  obtain ⟨k, m, i⟩ := f
  obtain ⟨k', m', i'⟩ := g
  have hbp : ∀ (k : OKind) (m : Bool), ∀ c ∈ k.base ++ OField.post ⟨k, m, 0⟩, isDig c = false := by
    intro k m c hc
    rcases List.mem_append.mp hc with hc | hc
    · exact base_nodig k c hc
    · exact post_nodig k m c hc
  have contra : ∀ (k k' : OKind) (m m' : Bool) (i : ℕ),
      k.base ++ (decimal i).map digitChar ++ OField.post ⟨k, m, 0⟩ =
        k'.base ++ OField.post ⟨k', m', 0⟩ → False := by
    intro k k' m m' i h
    obtain ⟨c, hc⟩ := List.exists_mem_of_ne_nil _ (decimal_ne_nil i)
    have h1 : digitChar c ∈ k'.base ++ OField.post ⟨k', m', 0⟩ := by
      rw [← h]
      simp only [List.mem_append, List.mem_map]
      exact Or.inl (Or.inr ⟨c, hc, rfl⟩)
    have := hbp k' m' _ h1
    rw [isDig_digitChar (decimal_lt i c hc)] at this
    exact absurd this (by decide)
  unfold OField.name at h
  simp only [OField.Ok] at hf hg
  simp only at h
  change k.base ++ _ ++ OField.post ⟨k, m, 0⟩ = k'.base ++ _ ++ OField.post ⟨k', m', 0⟩ at h
  by_cases hk : k.perClass = true
  · by_cases hk' : k'.perClass = true
    · rw [if_pos hk, if_pos hk'] at h
      obtain ⟨e1, e2, e3⟩ := split_name (base_nodig k) (base_nodig k') (digits_dig i) (digits_dig i')
        (post_nodig k m) (post_nodig k' m') (by simp [decimal_ne_nil]) (by simp [decimal_ne_nil]) h
      obtain ⟨a, b⟩ := shapes_indexed k k' m m' hk hk' e1 e3
      rw [a, b, decimal_inj e2]
    · rw [if_pos hk, if_neg hk', List.append_nil] at h
      exact absurd h (contra k k' m m' i)
  · by_cases hk' : k'.perClass = true
    · rw [if_neg hk, if_pos hk', List.append_nil] at h
      exact absurd h.symm (contra k' k m' m i')
    · rw [if_neg hk, if_neg hk', List.append_nil, List.append_nil] at h
      rw [if_neg hk] at hf
      rw [if_neg hk'] at hg
      obtain ⟨a, b⟩ := shapes_exact k k' m m' (by simpa using hk) (by simpa using hk') h
      rw [a, b, hf, hg]

theorem OField.name_ne_nil (f : OField) : f.name ≠ [] := by
  unfold OField.name
  intro h
  have h1 : f.kind.base = [] := by
    rw [List.append_assoc] at h
    exact (List.append_eq_nil_iff.mp h).1
  have : ∀ k : OKind, k.base ≠ [] := by decide +kernel
  exact this _ h1

/-! ### Validation -/

theorem exact_iff (name : Str) : name ∈ exactOutputFields ↔
    ∃ (k : OKind) (m : Bool), k.perClass = false ∧ k.base ++ OField.post ⟨k, m, 0⟩ = name := by
  constructor
  · have : ∀ e ∈ exactOutputFields, ∃ (k : OKind) (m : Bool), k.perClass = false ∧
        k.base ++ OField.post ⟨k, m, 0⟩ = e := by decide +kernel
    exact this name
  · rintro ⟨k, m, hk, rfl⟩
    have : ∀ (k : OKind) (m : Bool), k.perClass = false →
        k.base ++ OField.post ⟨k, m, 0⟩ ∈ exactOutputFields := by decide +kernel
    exact this k m hk

theorem indexed_iff (p : Str × Str) : p ∈ indexedOutputFields ↔
    ∃ (k : OKind) (m : Bool), k.perClass = true ∧ (k.base, OField.post ⟨k, m, 0⟩) = p := by
  constructor
  · have : ∀ e ∈ indexedOutputFields, ∃ (k : OKind) (m : Bool), k.perClass = true ∧
        (k.base, OField.post ⟨k, m, 0⟩) = e := by decide +kernel
    exact this p
  · rintro ⟨k, m, hk, rfl⟩
    have : ∀ (k : OKind) (m : Bool), k.perClass = true →
        (k.base, OField.post ⟨k, m, 0⟩) ∈ indexedOutputFields := by decide +kernel
    exact this k m hk

/-- C81. The validation accepts exactly the names of existing fields. -/
theorem C81_accepted (n : ℕ) (fields : List Str) :
    fieldsValid n fields = true ↔ ∀ name ∈ fields, ∃ f : OField, f.Ok n ∧ f.name = name := by
  unfold fieldsValid
  rw [List.all_eq_true]
  apply forall₂_congr
  intro name _
  unfold fieldValid
  rw [Bool.or_eq_true, List.any_eq_true, List.any_eq_true]
  constructor
  · rintro (⟨e, he, h⟩ | ⟨p, hp, h⟩)
    · have h' : e = name := by simpa using h
      subst h'
      obtain ⟨k, m, hk, hn⟩ := (exact_iff e).mp he
      refine ⟨⟨k, m, 0⟩, by simp [OField.Ok, hk], ?_⟩
      unfold OField.name
      simp only [hk]
      rw [if_neg (by simp), List.append_nil]
      exact hn
    · obtain ⟨k, m, hk, rfl⟩ := (indexed_iff p).mp hp
      rw [List.any_eq_true] at h
      obtain ⟨i, hi, h⟩ := h
      have h' : indexedName k.base i (OField.post ⟨k, m, 0⟩) = name := by simpa using h
      refine ⟨⟨k, m, i⟩, by simp [OField.Ok, hk]; exact List.mem_range.mp hi, ?_⟩
      unfold OField.name
      rw [← h', if_pos hk]
      rfl
  · rintro ⟨⟨k, m, i⟩, hok, rfl⟩
    by_cases hk : k.perClass = true
    · right
      refine ⟨(k.base, OField.post ⟨k, m, 0⟩), (indexed_iff _).mpr ⟨k, m, hk, rfl⟩, ?_⟩
      rw [List.any_eq_true]
      simp only [OField.Ok, hk, if_true] at hok
      refine ⟨i, List.mem_range.mpr hok, ?_⟩
      unfold OField.name
      simp only [hk, if_true]
      simp [indexedName, OField.post]
    · left
      refine ⟨_, (exact_iff _).mpr ⟨k, m, by simpa using hk, rfl⟩, ?_⟩
      unfold OField.name
      simp only
      rw [if_neg hk]
      simp [OField.post]

/-! ### The datasets -/

theorem mem_writeLoop {fields : List Str} {offset : ℕ} (names : List Str) (k : ℕ) (p : Str × ℕ) :
    p ∈ writeLoop fields offset k names ↔
      ∃ i, names[i]? = some p.1 ∧ p.2 = k + i ∧ offset ≤ p.2 ∧ p.1 ∈ fields := by
  induction names generalizing k with
  | nil => simp [writeLoop]
  | cons a l ih =>
    have split : (∃ i, (a :: l)[i]? = some p.1 ∧ p.2 = k + i ∧ offset ≤ p.2 ∧ p.1 ∈ fields) ↔
        (a = p.1 ∧ p.2 = k ∧ offset ≤ p.2 ∧ p.1 ∈ fields) ∨
        ∃ i, l[i]? = some p.1 ∧ p.2 = k + 1 + i ∧ offset ≤ p.2 ∧ p.1 ∈ fields := by
      constructor
      · rintro ⟨i, h1, h2, h3⟩
        cases i with
        | zero => left; simp at h1; exact ⟨h1, by omega, h3⟩
        | succ i => right; simp at h1; exact ⟨i, h1, by omega, h3⟩
      · rintro (⟨h1, h2, h3⟩ | ⟨i, h1, h2, h3⟩)
        · exact ⟨0, by simp [h1], by omega, h3⟩
        · exact ⟨i + 1, by simpa using h1, by omega, h3⟩
    rw [split]
    unfold writeLoop
    by_cases hk : k < offset
    · rw [if_pos hk, ih]
      constructor
      · intro h; exact Or.inr h
      · rintro (⟨-, h2, h3, -⟩ | h)
        · omega
        · exact h
    · rw [if_neg hk]
      by_cases hc : fields.contains a = true
      · rw [if_pos hc, List.mem_cons, ih]
        have hc' : a ∈ fields := by simpa using hc
        constructor
        · rintro (h | h)
          · subst h; exact Or.inl ⟨rfl, rfl, by simpa using hk, hc'⟩
          · exact Or.inr h
        · rintro (⟨h1, h2, -⟩ | h)
          · left; exact Prod.ext h1.symm h2
          · exact Or.inr h
      · rw [if_neg hc, ih]
        constructor
        · intro h; exact Or.inr h
        · rintro (⟨h1, -, -, h4⟩ | h)
          · rw [← h1] at h4; exact absurd (by simpa using h4) hc
          · exact h

theorem writeLoop_sorted {fields : List Str} {offset : ℕ} (names : List Str) (k : ℕ) :
    (writeLoop fields offset k names).Pairwise fun a b => a.2 < b.2 := by
  induction names generalizing k with
  | nil => exact List.Pairwise.nil
  | cons a l ih =>
    unfold writeLoop
    by_cases hk : k < offset
    · rw [if_pos hk]; exact ih _
    · rw [if_neg hk]
      by_cases hc : fields.contains a = true
      · rw [if_pos hc, List.pairwise_cons]
        refine ⟨?_, ih _⟩
        intro p hp
        obtain ⟨i, -, h, -⟩ := (mem_writeLoop l (k + 1) p).mp hp
        simp only
        omega
      · rw [if_neg hc]; exact ih _

/-- the number of components that are skipped -/
def offsetOf (v : OutVec) : ℕ := if skipFirst v then 1 else 0

theorem mem_writeRequested {t : OutTracers} {fields : List Str} {v : OutVec} {x : Str × OutVec × ℕ} :
    x ∈ writeRequested t fields v ↔ x.2.1 = v ∧ (specNames t v)[x.2.2]? = some x.1 ∧
      offsetOf v ≤ x.2.2 ∧ x.1 ∈ fields := by
  unfold writeRequested
  by_cases hf : fields.length = 0
  · rw [if_pos hf]
    have : fields = [] := List.length_eq_zero_iff.mp hf
    simp [this]
  · rw [if_neg hf, List.mem_map]
    constructor
    · rintro ⟨p, hp, rfl⟩
      obtain ⟨i, h1, h2, h3, h4⟩ := (mem_writeLoop _ _ _).mp hp
      have : p.2 = i := by omega
      exact ⟨rfl, by rw [this]; exact h1, h3, h4⟩
    · rintro ⟨h1, h2, h3, h4⟩
      refine ⟨(x.1, x.2.2), (mem_writeLoop _ _ _).mpr ⟨x.2.2, h2, by simp, h3, h4⟩, ?_⟩
      simp only
      rw [← h1]

theorem writeRequested_nodup (t : OutTracers) (fields : List Str) (v : OutVec) :
    (writeRequested t fields v).Nodup := by
  unfold writeRequested
  by_cases hf : fields.length = 0
  · rw [if_pos hf]; exact List.nodup_nil
  · rw [if_neg hf]
    apply List.Pairwise.map
    · intro a b hab h
      simp only [Prod.mk.injEq] at h
      exact absurd h.2.2 hab
    · exact (writeLoop_sorted _ 0).imp fun h => Nat.ne_of_lt h

theorem mem_datasets {t : OutTracers} {fields : List Str} {x : Str × OutVec × ℕ} :
    x ∈ datasets t fields ↔ (specNames t x.2.1)[x.2.2]? = some x.1 ∧ offsetOf x.2.1 ≤ x.2.2 ∧
      x.1 ∈ fields := by
  unfold datasets
  simp only [List.mem_append, mem_writeRequested]
  constructor
  · rintro (⟨h, h'⟩ | (⟨h, h'⟩ | ⟨h, h'⟩ | ⟨h, h'⟩) | ⟨h, h'⟩ | ⟨h, h'⟩) <;> rw [h] <;> exact h'
  · intro h
    cases hv : x.2.1 <;> rw [hv] at h <;> simp [h]

theorem datasets_nodup (t : OutTracers) (fields : List Str) : (datasets t fields).Nodup := by
  have dis : ∀ {v : OutVec} {l : List (Str × OutVec × ℕ)}, (∀ x ∈ l, x.2.1 ≠ v) →
      List.Disjoint (writeRequested t fields v) l := by
    intro v l h x hx hl
    exact h x hl (mem_writeRequested.mp hx).1
  unfold datasets
  have n := writeRequested_nodup t fields
  have e := fun (v : OutVec) (x : Str × OutVec × ℕ) (hx : x ∈ writeRequested t fields v) =>
    (mem_writeRequested.mp hx).1
  rw [List.append_assoc, List.append_assoc]
  refine List.Nodup.append (n _) (List.Nodup.append (n _) (List.Nodup.append (n _)
    (List.Nodup.append (n _) (List.Nodup.append (n _) (n _) (dis ?_)) (dis ?_)) (dis ?_)) (dis ?_)) (dis ?_) <;>
  · intro x hx
    simp only [List.mem_append, mem_writeRequested] at hx
    rcases hx with hx
    aesop

theorem compNames_get (a b c pre post : Str) (n r k : ℕ) (name : Str)
    (h : (compNames a b c pre post n r)[k]? = some name) :
    (k = 0 ∧ name = a) ∨ (k = 1 ∧ name = b) ∨ (k = 2 ∧ name = c) ∨
      (∃ i < n, k = 3 + i ∧ name = indexedName pre i post) ∨ name = [] := by
  unfold compNames at h
  rcases k with _ | _ | _ | k
  · simp at h; simp [h]
  · simp at h; simp [h]
  · simp at h; simp [h]
  · right; right; right
    have h' : ((List.range n).map (fun i => indexedName pre i post) ++ List.replicate r [])[k]? =
        some name := by simpa using h
    by_cases hk : k < n
    · rw [List.getElem?_append_left (by simpa using hk)] at h'
      left
      refine ⟨k, hk, by omega, ?_⟩
      simp [hk] at h'
      exact h'.symm
    · rw [List.getElem?_append_right (by simpa using hk)] at h'
      right
      have := List.mem_of_getElem? h'
      exact List.eq_of_mem_replicate this

theorem compNames_at {a b c pre post : Str} {n r i : ℕ} (h : i < n) :
    (compNames a b c pre post n r)[3 + i]? = some (indexedName pre i post) := by
  unfold compNames
  rw [show 3 + i = i + 1 + 1 + 1 by omega]
  simp only [List.cons_append, List.nil_append, List.getElem?_cons_succ]
  rw [List.getElem?_append_left (by simpa using h)]
  simp [h]

/-- every named component that is not skipped belongs to one field -/
theorem spec_entry {t : OutTracers} {v : OutVec} {k : ℕ} {name : Str}
    (h : (specNames t v)[k]? = some name) (hk : offsetOf v ≤ k) :
    name = [] ∨ ∃ g : OField, g.Ok t.classes ∧ g.name = name ∧ g.source = (v, k) := by
  cases v with
  | soln =>
    rcases compNames_get _ _ _ _ _ _ _ _ _ h with ⟨rfl, rfl⟩ | ⟨rfl, rfl⟩ | ⟨rfl, rfl⟩ | ⟨i, hi, rfl, rfl⟩ | h
    · exact Or.inr ⟨⟨.height, false, 0⟩, rfl, by decide +kernel, rfl⟩
    · exact Or.inr ⟨⟨.momX, false, 0⟩, rfl, by decide +kernel, rfl⟩
    · exact Or.inr ⟨⟨.momY, false, 0⟩, rfl, by decide +kernel, rfl⟩
    · exact Or.inr ⟨⟨.sed, false, i⟩, hi, rfl, rfl⟩
    · exact Or.inl h
  | solnMean =>
    rcases compNames_get _ _ _ _ _ _ _ _ _ h with ⟨rfl, rfl⟩ | ⟨rfl, rfl⟩ | ⟨rfl, rfl⟩ | ⟨i, hi, rfl, rfl⟩ | h
    · exact Or.inr ⟨⟨.height, true, 0⟩, rfl, by decide +kernel, rfl⟩
    · exact Or.inr ⟨⟨.momX, true, 0⟩, rfl, by decide +kernel, rfl⟩
    · exact Or.inr ⟨⟨.momY, true, 0⟩, rfl, by decide +kernel, rfl⟩
    · exact Or.inr ⟨⟨.sed, true, i⟩, hi, rfl, rfl⟩
    · exact Or.inl h
  | prim =>
    rcases compNames_get _ _ _ _ _ _ _ _ _ h with ⟨rfl, rfl⟩ | ⟨rfl, rfl⟩ | ⟨rfl, rfl⟩ | ⟨i, hi, rfl, rfl⟩ | h
    · exact absurd hk (by decide)
    · exact Or.inr ⟨⟨.velX, false, 0⟩, rfl, by decide +kernel, rfl⟩
    · exact Or.inr ⟨⟨.velY, false, 0⟩, rfl, by decide +kernel, rfl⟩
    · exact Or.inr ⟨⟨.conc, false, i⟩, hi, rfl, rfl⟩
    · exact Or.inl h
  | primMean =>
    rcases compNames_get _ _ _ _ _ _ _ _ _ h with ⟨rfl, rfl⟩ | ⟨rfl, rfl⟩ | ⟨rfl, rfl⟩ | ⟨i, hi, rfl, rfl⟩ | h
    · exact absurd hk (by decide)
    · exact Or.inr ⟨⟨.velX, true, 0⟩, rfl, by decide +kernel, rfl⟩
    · exact Or.inr ⟨⟨.velY, true, 0⟩, rfl, by decide +kernel, rfl⟩
    · exact Or.inr ⟨⟨.conc, true, i⟩, hi, rfl, rfl⟩
    · exact Or.inl h
  | src =>
    rcases compNames_get _ _ _ _ _ _ _ _ _ h with ⟨rfl, rfl⟩ | ⟨rfl, rfl⟩ | ⟨rfl, rfl⟩ | ⟨i, hi, rfl, rfl⟩ | h
    · exact Or.inr ⟨⟨.water, false, 0⟩, rfl, by decide +kernel, rfl⟩
    · exact Or.inr ⟨⟨.momXSrc, false, 0⟩, rfl, by decide +kernel, rfl⟩
    · exact Or.inr ⟨⟨.momYSrc, false, 0⟩, rfl, by decide +kernel, rfl⟩
    · exact Or.inr ⟨⟨.sedSrc, false, i⟩, hi, rfl, rfl⟩
    · exact Or.inl h
  | srcMean =>
    rcases compNames_get _ _ _ _ _ _ _ _ _ h with ⟨rfl, rfl⟩ | ⟨rfl, rfl⟩ | ⟨rfl, rfl⟩ | ⟨i, hi, rfl, rfl⟩ | h
    · exact Or.inr ⟨⟨.water, true, 0⟩, rfl, by decide +kernel, rfl⟩
    · exact Or.inr ⟨⟨.momXSrc, true, 0⟩, rfl, by decide +kernel, rfl⟩
    · exact Or.inr ⟨⟨.momYSrc, true, 0⟩, rfl, by decide +kernel, rfl⟩
    · exact Or.inr ⟨⟨.sedSrc, true, i⟩, hi, rfl, rfl⟩
    · exact Or.inl h

/-- every field has its component -/
theorem spec_of_field {t : OutTracers} {f : OField} (hf : f.Ok t.classes) :
    (specNames t f.source.1)[f.source.2]? = some f.name ∧ offsetOf f.source.1 ≤ f.source.2 := by
  obtain ⟨k, m, i⟩ := f
  cases k <;> cases m <;> simp only [OField.Ok, OKind.perClass] at hf <;>
    first
    | (simp only [Bool.false_eq_true, if_false] at hf
       subst hf
       refine ⟨?_, by decide⟩
       exact congrArg some (by decide +kernel))
    | (have hf' : i < t.classes := by simpa using hf
       refine ⟨?_, by simp [OField.source, offsetOf, skipFirst] <;> omega⟩
       exact compNames_at hf')

theorem filter_single {α : Type} (p : α → Bool) : ∀ {l : List α} {x : α}, l.Nodup → x ∈ l → p x = true →
    (∀ y ∈ l, p y = true → y = x) → l.filter p = [x] := by
  intro l
  induction l with
  | nil => intro x _ h; simp at h
  | cons a l ih =>
    intro x hn hx hp hu
    rw [List.nodup_cons] at hn
    by_cases ha : p a = true
    · have : a = x := hu a (by simp) ha
      subst this
      rw [List.filter_cons_of_pos ha]
      congr 1
      rw [List.filter_eq_nil_iff]
      intro y hy hpy
      have := hu y (by simp [hy]) hpy
      subst this
      exact hn.1 hy
    · rw [List.filter_cons_of_neg ha]
      apply ih hn.2
      · rcases List.mem_cons.mp hx with h | h
        · rw [h] at hp; exact absurd hp ha
        · exact h
      · exact hp
      · intro y hy; exact hu y (by simp [hy])

/-- C81. A field that exists and is requested is written exactly once, and what is written under its name is
the component of that field. -/
theorem C81_written {t : OutTracers} {fields : List Str} {f : OField} (hf : f.Ok t.classes)
    (hr : f.name ∈ fields) :
    (datasets t fields).filter (fun x => x.1 == f.name) = [(f.name, f.source)] := by
  obtain ⟨h1, h2⟩ := spec_of_field hf
  apply filter_single _ (datasets_nodup t fields)
  · rw [mem_datasets]
    exact ⟨h1, h2, hr⟩
  · simp
  · intro y hy hyn
    have hyn' : y.1 = f.name := by simpa using hyn
    obtain ⟨g1, g2, -⟩ := mem_datasets.mp hy
    rcases spec_entry g1 g2 with h | ⟨g, hg, hn, hs⟩
    · rw [hyn'] at h
      exact absurd h f.name_ne_nil
    · have : g = f := OField.name_inj hg hf (hn.trans hyn')
      rw [← this, hs, hn]

/-- C81. Nothing else is written: every dataset is that of a requested field (if the requested names passed
the validation). -/
theorem C81_only {t : OutTracers} {fields : List Str} (hv : fieldsValid t.classes fields = true)
    (x : Str × OutVec × ℕ) (hx : x ∈ datasets t fields) :
    ∃ f : OField, f.Ok t.classes ∧ f.name ∈ fields ∧ x = (f.name, f.source) := by
  obtain ⟨h1, h2, h3⟩ := mem_datasets.mp hx
  rcases spec_entry h1 h2 with h | ⟨g, hg, hn, hs⟩
  · obtain ⟨f, -, hf⟩ := (C81_accepted _ _).mp hv _ h3
    rw [h] at hf
    exact absurd hf f.name_ne_nil
  · refine ⟨g, hg, by rw [hn]; exact h3, ?_⟩
    rw [hn, hs]

theorem metadataLoop_eq (fields : List Str) (offset : ℕ) (names : List Str) (k : ℕ) :
    metadataLoop fields offset k names = (writeLoop fields offset k names).map Prod.fst := by
  induction names generalizing k with
  | nil => rfl
  | cons a l ih =>
    unfold metadataLoop writeLoop
    by_cases hk : k < offset
    · rw [if_pos hk, if_pos hk, ih]
    · rw [if_neg hk, if_neg hk]
      by_cases hc : fields.contains a = true
      · rw [if_pos hc, if_pos hc, List.map_cons, ih]
      · rw [if_neg hc, if_neg hc, ih]

/-- C81. The XMF file describes exactly the datasets of the HDF5 file, in the same order. -/
theorem C81_metadata (t : OutTracers) (fields : List Str) :
    attributes t fields = (datasets t fields).map Prod.fst := by
  have h : ∀ v, fieldMetadata t fields v = (writeRequested t fields v).map Prod.fst := by
    intro v
    unfold fieldMetadata writeRequested
    by_cases hf : fields.length = 0
    · rw [if_pos hf, if_pos hf]; rfl
    · rw [if_neg hf, if_neg hf, metadataLoop_eq, List.map_map]
      rfl
  unfold attributes datasets
  simp only [h, List.map_append]

/-- C81. A mean (or a copy of the instantaneous values) is computed exactly if a field of that vector is
written. -/
theorem C81_computed (t : OutTracers) (fields : List Str) (v : OutVec) :
    anyRequested t fields v = true ↔ ∃ x ∈ datasets t fields, x.2.1 = v := by
  unfold anyRequested
  rw [List.any_eq_true]
  constructor
  · rintro ⟨name, hn, hc⟩
    obtain ⟨i, hi⟩ := List.getElem?_of_mem hn
    rw [List.getElem?_drop] at hi
    refine ⟨(name, v, offsetOf v + i), mem_datasets.mpr ⟨hi, Nat.le_add_right _ _, by simpa using hc⟩, rfl⟩
  · rintro ⟨x, hx, rfl⟩
    obtain ⟨h1, h2, h3⟩ := mem_datasets.mp hx
    refine ⟨x.1, ?_, by simpa using h3⟩
    apply List.mem_of_getElem? (i := x.2.2 - offsetOf x.2.1)
    rw [List.getElem?_drop]
    change (specNames t x.2.1)[offsetOf x.2.1 + (x.2.2 - offsetOf x.2.1)]? = _
    rw [Nat.add_sub_cancel' h2]
    exact h1

/-- C81. Without a list of fields, depth and momentum are written. -/
theorem C81_default (t : OutTracers) : fieldsValid t.classes (fieldsGiven []) = true ∧
    ∀ k : OKind, k = .height ∨ k = .momX ∨ k = .momY →
      ((OField.mk k false 0).name, (OField.mk k false 0).source) ∈ datasets t (fieldsGiven []) := by
  have hn : ∀ k : OKind, k = .height ∨ k = .momX ∨ k = .momY →
      (OField.mk k false 0).name ∈ fieldsGiven [] := by
    have : ∀ k : OKind, k = .height ∨ k = .momX ∨ k = .momY →
      (OField.mk k false 0).kind.perClass = false ∧
      k.base ++ OField.post ⟨k, false, 0⟩ ∈ fieldsGiven [] := by decide +kernel
    intro k hk
    obtain ⟨h1, h2⟩ := this k hk
    unfold OField.name
    rw [h1]
    simpa using h2
  constructor
  · rw [C81_accepted]
    intro name h
    have hm : name = "Height".toList ∨ name = "MomentumX".toList ∨ name = "MomentumY".toList := by
      simpa [fieldsGiven] using h
    rcases hm with rfl | rfl | rfl
    · exact ⟨⟨.height, false, 0⟩, rfl, by decide +kernel⟩
    · exact ⟨⟨.momX, false, 0⟩, rfl, by decide +kernel⟩
    · exact ⟨⟨.momY, false, 0⟩, rfl, by decide +kernel⟩
  · intro k hk
    have hok : (OField.mk k false 0).Ok t.classes := by
      rcases hk with rfl | rfl | rfl <;> rfl
    obtain ⟨h1, h2⟩ := spec_of_field hok
    exact mem_datasets.mpr ⟨h1, h2, hn k hk⟩

/-- two classes, a request in another order and with a repetition -/
example : (datasets ⟨2, 0⟩ ["SedimentConcentration1".toList, "Height".toList, "VelocityX_Mean".toList,
      "Height".toList]) =
    [("Height".toList, .soln, 0), ("VelocityX_Mean".toList, .primMean, 1),
     ("SedimentConcentration1".toList, .prim, 4)] := by decide +kernel

example : (datasets ⟨2, 0⟩ [(OField.mk .conc false 1).name, (OField.mk .height true 0).name]).filter
    (fun x => x.1 == (OField.mk .conc false 1).name) = [((OField.mk .conc false 1).name, .prim, 4)] :=
  C81_written (f := ⟨.conc, false, 1⟩) (by norm_num [OField.Ok, OKind.perClass]) (by simp)

example : fieldsValid 1 ["SedimentConcentration0".toList, "Height_Mean".toList] = true ∧
    fieldsValid 1 ["SedimentConcentration1".toList] = false := by decide +kernel

/-- C81 (disagreement). Salinity and temperature cannot be written: whatever fields are requested, if they
pass the validation, no dataset holds a component beyond the sediment classes. -/
theorem C81_salinity_violated {t : OutTracers} {fields : List Str}
    (hv : fieldsValid t.classes fields = true) (x : Str × OutVec × ℕ) (hx : x ∈ datasets t fields) :
    x.2.2 < 3 + t.classes := by
  obtain ⟨f, hf, -, rfl⟩ := C81_only hv x hx
  obtain ⟨k, m, i⟩ := f
  cases k <;> simp only [OField.Ok, OKind.perClass, if_true] at hf <;> simp only [OField.source] <;> omega

example : ∀ x ∈ datasets ⟨1, 1⟩ ["SedimentConcentration0".toList, "Height".toList], x.2.2 ≠ 4 := by
  intro x hx
  have := C81_salinity_violated (t := ⟨1, 1⟩) (by decide +kernel) x hx
  simp only at this
  omega

/-! ### C82 -/

/-- Velocity of the water in a cell as a user understands it: 0 in a dry cell. -/
noncomputable def velOf (P : FlowParams) (m : ℝ) (s : TCons) : ℝ := if s.q.h < P.tinyH then 0 else m / s.q.h

/-- C82. Without regularisation, the primitive variables computed for a state are its depth, its velocities
and its concentrations (0 in a dry cell). -/
theorem C82_formula_partial {P : FlowParams} (ha : P.hAnuga = 0) (ht : 0 < P.tinyH) (s : TCons) (j : ℕ) :
    primPetsc P s 0 = s.q.h ∧ primPetsc P s 1 = velOf P s.q.hu s ∧ primPetsc P s 2 = velOf P s.q.hv s ∧
    primPetsc P s (3 + j) = velOf P (s.hc j) s := by
  unfold primPetsc velOf
  refine ⟨if_pos rfl, ?_, ?_, ?_⟩
  · rw [if_neg (by norm_num)]
    by_cases hw : s.q.h < P.tinyH
    · rw [if_neg (not_le.mpr hw), if_pos hw]
    · have : s.q.h ≠ 0 := by intro h; rw [h] at hw; exact hw ht
      rw [if_pos (not_lt.mp hw), if_neg hw, if_pos rfl, ha]
      field_simp
      ring
  · rw [if_neg (by norm_num)]
    by_cases hw : s.q.h < P.tinyH
    · rw [if_neg (not_le.mpr hw), if_pos hw]
    · have : s.q.h ≠ 0 := by intro h; rw [h] at hw; exact hw ht
      rw [if_pos (not_lt.mp hw), if_neg hw, if_neg (by norm_num), if_pos rfl, ha]
      field_simp
      ring
  · rw [if_neg (by omega)]
    by_cases hw : s.q.h < P.tinyH
    · rw [if_neg (not_le.mpr hw), if_pos hw]
    · rw [if_pos (not_lt.mp hw), if_neg hw, if_neg (by omega), if_neg (by omega), Nat.add_sub_cancel_left]

example : primPetsc ⟨9.8, 1, 0, 0⟩ ⟨⟨2, 3, 4⟩, fun _ => 5⟩ 1 = 3 / 2 := by
  have := (C82_formula_partial (P := ⟨9.8, 1, 0, 0⟩) rfl (by norm_num) ⟨⟨2, 3, 4⟩, fun _ => 5⟩ 0).2.1
  rw [this]
  norm_num [velOf]

/-- C82 (disagreement). With regularisation, the written velocity of moving water is smaller than momentum
divided by depth. -/
theorem C82_regularised_violated {P : FlowParams} (ha : P.hAnuga ≠ 0) {s : TCons} (ht : 0 < P.tinyH)
    (hw : P.tinyH ≤ s.q.h) (hm : 0 < s.q.hu) : primPetsc P s 1 < s.q.hu / s.q.h := by
  have hh : 0 < s.q.h := lt_of_lt_of_le ht hw
  have h2 : 0 < P.hAnuga * P.hAnuga := mul_self_pos.mpr ha
  unfold primPetsc
  rw [if_neg (by norm_num), if_pos hw, if_pos rfl, div_lt_div_iff₀ (by nlinarith [mul_pos hh hh]) hh]
  nlinarith [mul_pos hm h2]

example : primPetsc ⟨9.8, 1, 1, 0⟩ ⟨⟨2, 3, 4⟩, fun _ => 5⟩ 1 < 3 / 2 :=
  C82_regularised_violated (P := ⟨9.8, 1, 1, 0⟩) (s := ⟨⟨2, 3, 4⟩, fun _ => 5⟩) (by norm_num) (by norm_num)
    (by norm_num) (by norm_num)

/-- C82. The two backends compute the same primitive variables except where the depth is exactly
`tiny_h`. -/
theorem C82_backends_partial (P : FlowParams) (s : TCons) (hs : s.q.h ≠ P.tinyH) (d : ℕ) :
    primCeed P s d = primPetsc P s d := by
  unfold primCeed primPetsc
  have : s.q.h > P.tinyH ↔ s.q.h ≥ P.tinyH := ⟨le_of_lt, fun h => lt_of_le_of_ne h (Ne.symm hs)⟩
  simp only [this]

/-- C82 (disagreement). At depth `tiny_h` the CEED backend writes velocity 0, the PETSc backend does
not. -/
theorem C82_backends_violated : ∃ (P : FlowParams) (s : TCons), primCeed P s 1 = 0 ∧ primPetsc P s 1 = 3 := by
  refine ⟨⟨9.8, 1, 0, 0⟩, ⟨⟨1, 3, 0⟩, fun _ => 0⟩, ?_, ?_⟩
  · norm_num [primCeed]
  · norm_num [primPetsc]

/-- the stages of forward Euler: the solution before the step -/
def eulerStages (U : ℕ → ℕ → TCons) (n : ℕ) : List (ℕ → TCons) := [U n]

/-- the primitive variables of a state, as the backend computes them -/
noncomputable def SrcOp.prim (o : SrcOp) (P : FlowParams) (s : TCons) (d : ℕ) : ℝ :=
  if o.ceed then primCeed P s d else primPetsc P s d

theorem evalPrim_writes {o : SrcOp} (ho : o.writesPrim = true) (P : FlowParams) (u : ℕ → TCons)
    (pv : ℕ → ℕ → ℝ) : o.evalPrim P u pv = fun c => o.prim P (u c) := by
  unfold SrcOp.evalPrim SrcOp.prim
  rw [if_pos ho]
  by_cases hc : o.ceed = true
  · simp only [if_pos hc]
  · simp only [if_neg hc]

/-- C82 (what is written). When the output monitor is called after step `n`, the primitive variables are
those of the last state for which the right-hand side was evaluated in step `n`. -/
theorem C82_last_stage {o : SrcOp} (ho : o.writesPrim = true) (P : FlowParams)
    (stages : ℕ → List (ℕ → TCons)) (n : ℕ) (before : List (ℕ → TCons)) (u : ℕ → TCons)
    (hs : stages n = before ++ [u]) (c d : ℕ) : o.primAt P stages (n + 1) c d = o.prim P (u c) d := by
  have h : o.primAt P stages (n + 1) =
      (stages n).foldl (fun pv u => o.evalPrim P u pv) (o.primAt P stages n) := rfl
  rw [h, hs, List.foldl_append, List.foldl_cons, List.foldl_nil, evalPrim_writes ho]

/-- C82 (what is written with forward Euler): the primitive variables in the output of step `n + 1` are those
of the solution at step `n`. -/
theorem C82_lag {o : SrcOp} (ho : o.writesPrim = true) (P : FlowParams) (U : ℕ → ℕ → TCons) (n c d : ℕ) :
    o.primAt P (eulerStages U) (n + 1) c d = o.prim P (U n c) d :=
  C82_last_stage ho P (eulerStages U) n [] (U n) rfl c d

/-- C82. Hence velocities and concentrations in the output belong to the depth and momentum written with
them in every cell whose state did not change in the last step. -/
theorem C82_steady_partial {o : SrcOp} (ho : o.writesPrim = true) (P : FlowParams) (U : ℕ → ℕ → TCons)
    {n c : ℕ} (hs : U (n + 1) c = U n c) (d : ℕ) :
    o.primAt P (eulerStages U) (n + 1) c d = o.prim P (U (n + 1) c) d := by
  rw [C82_lag ho, hs]

example : (SrcOp.mk false false false).primAt ⟨9.8, 1, 0, 0⟩ (eulerStages fun _ _ => ⟨⟨2, 3, 4⟩, fun _ => 5⟩) 7 0 1 =
    3 / 2 := by
  rw [C82_steady_partial (o := ⟨false, false, false⟩) (by decide) _ _ (n := 6) rfl]
  norm_num [SrcOp.prim, primPetsc]

/-- a single closed cell -/
noncomputable def onePond : PMesh where
  numCells := 1
  owned := fun _ => true
  l2o := id
  area := fun _ => 1
  dzdx := fun _ => 0
  dzdy := fun _ => 0
  zc := fun _ => 0
  internal := []
  boundary := []

/-- C82 (disagreement). In the first output the velocities are 0 whatever the initial condition, and in a
later output they are those of the step before: a forward Euler step of a closed cell pushed by a momentum
source (no roughness) yields momentum 1 at depth 1, but velocity 0 is written with it. -/
theorem C82_violated (o : SrcOp) (P : FlowParams) :
    (∀ stages c d, o.primAt P stages 0 c d = 0) ∧
    (o.writesPrim = true → 0 < P.tinyH → P.tinyH < 1 → ∃ (U : ℕ → ℕ → TCons) (f : ℕ → Flux),
      rhs P .semiImplicit false onePond 1 (fun _ => ⟨0, 1, 0⟩) (fun _ => 0) (fun c => (U 0 c).q) = some f ∧
      (U 1 0).q = ⟨(U 0 0).q.h + 1 * (f 0).m, (U 0 0).q.hu + 1 * (f 0).x, (U 0 0).q.hv + 1 * (f 0).y⟩ ∧
      (U 1 0).q = ⟨1, 1, 0⟩ ∧ o.primAt P (eulerStages U) 1 0 1 = 0) := by
  refine ⟨fun _ _ _ => rfl, ?_⟩
  intro ho ht ht1
  refine ⟨fun n _ => if n = 0 then ⟨⟨1, 0, 0⟩, fun _ => 0⟩ else ⟨⟨1, 1, 0⟩, fun _ => 0⟩,
    addAt (fun _ => Flux.zero) 0 ⟨0, 1, 0⟩, ?_, ?_, ?_, ?_⟩
  · simp only [rhs, onePond, applyInterior, applyBoundary, applySource, List.foldlM_nil, Option.bind_eq_bind,
      Option.pure_def, Option.bind_some, List.range_one, List.foldlM_cons, sourceCell, friction, bedTerm,
      frictionSemiImplicit, if_true, id]
    norm_num [ht1, le_of_lt ht1]
  · simp [addAt, Flux.zero, Flux.add]
  · simp
  · rw [C82_lag ho]
    unfold SrcOp.prim
    by_cases hc : o.ceed = true
    · rw [if_pos hc]
      simp [primCeed]
    · rw [if_neg hc]
      simp [primPetsc]

/-- C82 (disagreement). With sediment and hydrostatic reconstruction on the PETSc backend the velocities and
concentrations in the output are always 0. -/
theorem C82_tracer_hr_violated (P : FlowParams) (stages : ℕ → List (ℕ → TCons)) (n c d : ℕ) :
    (SrcOp.mk false true true).primAt P stages n c d = 0 := by
  have h : ∀ n, (SrcOp.mk false true true).primAt P stages n = fun _ _ => 0 := by
    intro n
    induction n with
    | zero => rfl
    | succ n ih =>
      have e : (SrcOp.mk false true true).primAt P stages (n + 1) =
        (stages n).foldl (fun pv u => (SrcOp.mk false true true).evalPrim P u pv)
          ((SrcOp.mk false true true).primAt P stages n) := rfl
      rw [e, ih]
      generalize stages n = l
      induction l with
      | nil => rfl
      | cons u l ih => exact ih
  rw [h]

end RDy
