import Verif.Model.Xdmf
import Verif.Props.Output
import Verif.Props.OutputFields
import Mathlib.Tactic

/-! Lemmas on the XDMF files: datasets in HDF5 files, names. -/

namespace RDy

/-! ### Datasets in a file -/

/-- the dataset of a group and a name in a file, if there is one -/
def H5.get (f : H5) (g n : Str) : Option XSet := f.find? fun x => decide (x.group = g) && decide (x.name = n)

theorem H5.get_put_self (f : H5) (d : XSet) : (f.put d).get d.group d.name = some d := by
  unfold H5.put H5.get
  rw [List.find?_append]
  have : List.find? (fun x => decide (x.group = d.group) && decide (x.name = d.name))
      (List.filter (fun x => !(decide (x.group = d.group) && decide (x.name = d.name))) f) = none := by
    rw [List.find?_eq_none]
    intro x hx
    have := (List.mem_filter.mp hx).2
    simpa [imp_iff_not_or] using this
  rw [this]
  simp

theorem H5.get_put_ne (f : H5) (d : XSet) {g n : Str} (h : ¬(d.group = g ∧ d.name = n)) :
    (f.put d).get g n = f.get g n := by
  unfold H5.put H5.get
  rw [List.find?_append]
  have h1 : List.find? (fun x : XSet => decide (x.group = g) && decide (x.name = n)) [d] = none := by
    rw [List.find?_eq_none]
    intro x hx
    rw [List.mem_singleton] at hx
    subst hx
    simpa using h
  rw [h1, Option.or_none, List.find?_filter]
  congr 1
  funext x
  by_cases hx : x.group = g ∧ x.name = n
  · obtain ⟨rfl, rfl⟩ := hx
    have : ¬(x.group = d.group ∧ x.name = d.name) := fun e => h ⟨e.1.symm, e.2.symm⟩
    simpa [imp_iff_not_or] using this
  · have : (decide (x.group = g) && decide (x.name = n)) = false := by simpa using hx
    rw [this]
    simp

theorem H5.get_foldl_ne (l : List XSet) (f : H5) {g n : Str} (h : ∀ d ∈ l, d.group ≠ g) :
    (l.foldl H5.put f).get g n = f.get g n := by
  induction l generalizing f with
  | nil => rfl
  | cons d l ih =>
    rw [List.foldl_cons, ih _ fun x hx => h x (List.mem_cons_of_mem _ hx)]
    exact H5.get_put_ne f d fun e => h d List.mem_cons_self e.1

theorem H5.get_foldl_name (l : List XSet) (f : H5) {g n : Str} (h : ∀ d ∈ l, d.name ≠ n) :
    (l.foldl H5.put f).get g n = f.get g n := by
  induction l generalizing f with
  | nil => rfl
  | cons d l ih =>
    rw [List.foldl_cons, ih _ fun x hx => h x (List.mem_cons_of_mem _ hx)]
    exact H5.get_put_ne f d fun e => h d List.mem_cons_self e.2

theorem H5.get_foldl_mem (l : List XSet) (f : H5) (hn : (l.map XSet.name).Nodup) {d : XSet} (hd : d ∈ l) :
    (l.foldl H5.put f).get d.group d.name = some d := by
  induction l generalizing f with
  | nil => exact absurd hd List.not_mem_nil
  | cons a l ih =>
    rw [List.map_cons, List.nodup_cons] at hn
    rw [List.foldl_cons]
    rcases List.mem_cons.mp hd with rfl | hd
    · rw [H5.get_foldl_name l _ fun x hx e => hn.1 (by rw [← e]; exact List.mem_map_of_mem hx)]
      exact H5.get_put_self f d
    · exact ih _ hn.2 hd

/-! ### Names -/

theorem afterSlash_eq (d b : Str) (hb : '/' ∉ b) : afterSlash (d ++ ['/'] ++ b) = b := by
  unfold afterSlash
  rw [List.reverse_append, List.reverse_append, List.takeWhile_append_of_pos]
  · simp
  · intro x hx
    have hx' : x ∈ b := List.mem_reverse.mp hx
    simp only [bne_iff_ne, ne_eq]
    rintro rfl
    exact hb hx'

/-- the directory of a file, with the slash -/
def directoryOf (s : Str) : Str := (s.reverse.dropWhile (· != '/')).reverse

theorem directoryOf_eq (d b : Str) (hb : '/' ∉ b) : directoryOf (d ++ ['/'] ++ b) = d ++ ['/'] := by
  unfold directoryOf
  rw [List.reverse_append, List.reverse_append, List.dropWhile_append_of_pos]
  · simp
  · intro x hx
    have hx' : x ∈ b := List.mem_reverse.mp hx
    simp only [bne_iff_ne, ne_eq]
    rintro rfl
    exact hb hx'

theorem slash_digits (l : List ℕ) (h : ∀ d ∈ l, d < 10) : '/' ∉ l.map digitChar := by
  intro hm
  obtain ⟨d, hd, e⟩ := List.mem_map.mp hm
  have := isDig_digitChar (h d hd)
  rw [e] at this
  exact absurd this (by decide)

theorem space_digits (l : List ℕ) (h : ∀ d ∈ l, d < 10) : ' ' ∉ l.map digitChar := by
  intro hm
  obtain ⟨d, hd, e⟩ := List.mem_map.mp hm
  have := isDig_digitChar (h d hd)
  rw [e] at this
  exact absurd this (by decide)

theorem padded_ne_nil (w n : ℕ) : padded w n ≠ [] := by
  unfold padded
  intro h
  exact decimal_ne_nil n (List.append_eq_nil_iff.mp h).2

/-- the text before the first space -/
theorem before_space {a b x y : Str} (ha : ' ' ∉ a) (hb : ' ' ∉ b) (h : a ++ [' '] ++ x = b ++ [' '] ++ y) :
    a = b := by
  have e : ∀ (a x : Str), ' ' ∉ a → (a ++ [' '] ++ x).takeWhile (· != ' ') = a := by
    intro a x ha
    rw [List.append_assoc, List.takeWhile_append_of_pos]
    · simp
    · intro c hc
      simp only [bne_iff_ne, ne_eq]
      rintro rfl
      exact ha hc
  rw [← e a x ha, h, e b y hb]

theorem XCfg.group_inj (c : XCfg) {o o' : XOut} (h : c.group o = c.group o') : o.step = o'.step := by
  unfold XCfg.group at h
  rw [List.append_assoc, List.append_assoc, List.append_assoc (_ ++ [' ']), List.append_assoc (_ ++ [' '])] at h
  exact decimal_inj (before_space (space_digits _ (decimal_lt _)) (space_digits _ (decimal_lt _)) h)

/-- What a configuration must satisfy for its files to be written and named as intended: no slash in the prefix or in
a date, a step interval, a batch size, a positive `stop_n` if names carry step numbers, valid fields. -/
structure XCfg.Ok (c : XCfg) : Prop where
  preSlash : '/' ∉ c.pre
  stampSlash : ∀ st, c.stamp = some st → ∀ k, '/' ∉ st k
  interval : 0 < c.out.outputInterval
  batch : 0 < c.out.batchSize
  stop : c.stamp = none → 0 < c.out.stopN
  fields : fieldsValid c.tracers.classes c.fields = true

/-- The shape of the names of the files of a step (without directory). -/
def XCfg.StepBase (c : XCfg) (b : Str) : Prop :=
  '/' ∉ b ∧ ((∃ r, b = c.pre ++ '.' :: r) ∨ ∃ d r, isDig d = true ∧ b = c.pre ++ '-' :: d :: r)

theorem indexed_base (c : XCfg) (hp : '/' ∉ c.pre) (i mx : ℕ) (hm : 0 < mx) (suf : Str) (hs : '/' ∉ suf) :
    ∃ b, indexedFilename c.dir c.pre i mx suf = some (c.dir ++ ['/'] ++ b) ∧ c.StepBase b := by
  refine ⟨c.pre ++ '-' :: ((padded (Nat.log 10 mx + 1) i).map digitChar ++ ['.'] ++ suf), ?_, ?_, Or.inr ?_⟩
  · unfold indexedFilename numDigits
    rw [if_neg (by omega)]
    simp
  · have h1 := slash_digits _ (padded_lt (Nat.log 10 mx + 1) i)
    simp only [List.mem_append, List.mem_cons, List.not_mem_nil, or_false, not_or]
    exact ⟨hp, by decide, ⟨h1, by decide⟩, hs⟩
  · obtain ⟨d, l, e⟩ := List.exists_cons_of_ne_nil (padded_ne_nil (Nat.log 10 mx + 1) i)
    refine ⟨digitChar d, l.map digitChar ++ ['.'] ++ suf, isDig_digitChar ?_, ?_⟩
    · exact padded_lt (Nat.log 10 mx + 1) i d (by rw [e]; exact List.mem_cons_self)
    · rw [e]; rfl

theorem XCfg.Ok.perStep {c : XCfg} (hc : c.Ok) (o : XOut) (suf : Str) (hs : '/' ∉ suf) :
    ∃ b, c.perStep o suf = some (c.dir ++ ['/'] ++ b) ∧ c.StepBase b := by
  unfold XCfg.perStep
  cases hst : c.stamp with
  | none => exact indexed_base c hc.preSlash _ _ (hc.stop hst) suf hs
  | some st =>
    refine ⟨c.pre ++ '.' :: (st (stampSeconds o.time) ++ ['.'] ++ suf), ?_, ?_, Or.inl ⟨_, rfl⟩⟩
    · simp [stampedFilename]
    · have h1 := hc.stampSlash st hst (stampSeconds o.time)
      simp only [List.mem_append, List.mem_cons, List.not_mem_nil, or_false, not_or]
      exact ⟨hc.preSlash, by decide, ⟨h1, by decide⟩, hs⟩

theorem XCfg.Ok.xmfName {c : XCfg} (hc : c.Ok) (o : XOut) :
    ∃ b, c.xmfName o = some (c.dir ++ ['/'] ++ b) ∧ c.StepBase b := hc.perStep o _ (by decide)

theorem XCfg.Ok.h5Name {c : XCfg} (hc : c.Ok) (o : XOut) :
    ∃ b, c.h5Name o = some (c.dir ++ ['/'] ++ b) ∧ c.StepBase b := by
  unfold XCfg.h5Name
  by_cases hb : c.out.batchSize = 1
  · rw [if_pos hb]
    exact hc.perStep o _ (by decide)
  · have hi := hc.interval
    have hb0 := hc.batch
    have e1 : fileIndex c.out o.step = some (o.step / c.out.outputInterval / c.out.batchSize) := by
      unfold fileIndex cdiv
      rw [if_neg hb, if_neg (by omega), Option.bind_some, if_neg (by omega)]
    have e2 : ∃ m, maxIndex c.out = some m ∧ 0 < m := by
      unfold maxIndex cdiv
      rw [if_neg hb, if_neg (by omega), Option.bind_some, if_neg (by omega), Option.map_some]
      refine ⟨_, rfl, ?_⟩
      split_ifs <;> omega
    obtain ⟨m, e2, hm⟩ := e2
    rw [if_neg hb, e1, e2, Option.bind_some, Option.bind_some]
    exact indexed_base c hc.preSlash _ _ hm _ (by decide)

/-- the name of the grid file without directory -/
def XCfg.gridBase (c : XCfg) (level : ℕ) : Str :=
  c.pre ++ '-' :: 'g' :: 'r' :: 'i' :: 'd' :: '.' ::
    (if c.amr then 'r' :: ((decimal level).map digitChar ++ ['.', 'h', '5']) else ['h', '5'])

theorem XCfg.gridName_eq (c : XCfg) (level : ℕ) : c.gridName level = c.dir ++ ['/'] ++ c.gridBase level := by
  unfold XCfg.gridName XCfg.gridBase
  cases c.amr <;> simp

theorem XCfg.Ok.gridBase {c : XCfg} (hc : c.Ok) (level : ℕ) : '/' ∉ c.gridBase level := by
  have h1 := slash_digits _ (decimal_lt level)
  have h2 := hc.preSlash
  unfold XCfg.gridBase
  cases c.amr
  · simp [h2]
  · simp only [List.mem_append, List.mem_cons, List.not_mem_nil, or_false, not_or, if_true]
    exact ⟨h2, by decide, by decide, by decide, by decide, by decide, by decide, by decide, h1, by decide, by decide,
      by decide⟩

theorem XCfg.gridName_inj (c : XCfg) {a b : ℕ} (ha : c.amr = true) (h : c.gridName a = c.gridName b) : a = b := by
  rw [c.gridName_eq, c.gridName_eq] at h
  have h1 := List.append_cancel_left h
  unfold XCfg.gridBase at h1
  have h2 := List.append_cancel_left h1
  rw [ha] at h2
  simp only [if_true, List.cons.injEq, true_and] at h2
  exact decimal_inj (List.append_cancel_right h2)

theorem XCfg.StepBase.ne_grid {c : XCfg} {b : Str} (hb : c.StepBase b) (level : ℕ) :
    c.dir ++ ['/'] ++ b ≠ c.gridName level := by
  rw [c.gridName_eq]
  intro h
  have h1 := List.append_cancel_left h
  unfold XCfg.gridBase at h1
  rcases hb.2 with ⟨r, e⟩ | ⟨d, r, hd, e⟩
  · rw [e] at h1
    have h2 := List.append_cancel_left h1
    simp only [List.cons.injEq] at h2
    exact absurd h2.1 (by decide)
  · rw [e] at h1
    have h2 := List.append_cancel_left h1
    simp only [List.cons.injEq] at h2
    rw [h2.2.1] at hd
    exact absurd hd (by decide)

theorem datasets_names_nodup {t : OutTracers} {fields : List Str} (hv : fieldsValid t.classes fields = true) :
    ((datasets t fields).map Prod.fst).Nodup := by
  refine List.Nodup.map_on ?_ (datasets_nodup t fields)
  intro x hx y hy hxy
  obtain ⟨f, hf, -, rfl⟩ := C81_only hv x hx
  obtain ⟨g, hg, -, rfl⟩ := C81_only hv y hy
  rw [OField.name_inj hf hg hxy]

end RDy
