import Verif.Model.ForcingOptions
import Mathlib.Tactic

/-!
C87: the datasets given on the command line are those that are used.

Specification: `Asks o s` says that the options contain a complete description of dataset `s`, and
`Incomplete o` that they contain a start date, or one of the lists of files and regions, without what
has to go with it.
-/

namespace RDy

/-- Specification: the options describe dataset `s` completely. -/
def Asks (o : ForcingOpts) : DataSel → Prop
  | .unset => False
  | .constant r => o.constant = some r
  | .homogeneous f => o.homFile = some f
  | .raster dir date => o.rasterDir = some dir ∧ o.rasterDate = some date ∧ date.length = 5
  | .unstructured dir mesh date =>
    o.unsDir = some dir ∧ o.unsMesh = some mesh ∧ o.unsDate = some date ∧ date.length = 5
  | .multi l => ∃ fs is, o.files = some fs ∧ o.ids = some is ∧ fs.length = is.length ∧ l = fs.zip is

/-- Specification: a raster start date without directory or with a wrong number of entries. -/
def RasterIncomplete (o : ForcingOpts) : Prop :=
  ∃ d, o.rasterDate = some d ∧ (o.rasterDir = none ∨ d.length ≠ 5)

/-- Specification: a start date of an unstructured dataset without directory or mesh file or with a
wrong number of entries. -/
def UnsIncomplete (o : ForcingOpts) : Prop :=
  ∃ d, o.unsDate = some d ∧ (o.unsDir = none ∨ o.unsMesh = none ∨ d.length ≠ 5)

/-- Specification: files without regions, regions without files, or different numbers of them. -/
def MultiIncomplete (o : ForcingOpts) : Prop :=
  (o.files.isSome ≠ o.ids.isSome) ∨
    ∃ fs is, o.files = some fs ∧ o.ids = some is ∧ fs.length ≠ is.length

/-- No list is longer than the room that the program has for it. -/
def ShortLists (o : ForcingOpts) : Prop :=
  (∀ d, o.rasterDate = some d → d.length ≤ 5) ∧ (∀ d, o.unsDate = some d → d.length ≤ 5) ∧
    (∀ l, o.files = some l → l.length ≤ 20) ∧ (∀ l, o.ids = some l → l.length ≤ 20)

/-- The datasets found by the stages. -/
def found : List (Res (Option DataSel)) → List DataSel
  | [] => []
  | .ok (some s) :: l => s :: found l
  | _ :: l => found l

/-- All stages succeed. -/
def allOk (l : List (Res (Option DataSel))) : Prop := ∀ x ∈ l, ∃ o, x = .ok o

theorem runStages_ok (l : List (Res (Option DataSel))) : ∀ (n : ℕ) (s t : DataSel),
    runStages n s l = .ok t ↔ allOk l ∧ n + (found l).length ≤ 1 ∧ t = (found l).getLastD s := by
  induction l with
  | nil =>
    intro n s t
    unfold runStages
    by_cases h : n ≤ 1
    · rw [if_pos h]
      simp [allOk, found, h, eq_comm]
    · rw [if_neg h]
      simp [allOk, found, h]
  | cons x l ih =>
    intro n s t
    rcases x with o | _ | _
    · rcases o with _ | s'
      · simp only [runStages, found, ih]
        simp [allOk]
      · simp only [runStages, found, ih]
        simp only [allOk, List.mem_cons, forall_eq_or_imp, List.length_cons, List.getLastD_cons]
        constructor
        · rintro ⟨a, b, c⟩; exact ⟨⟨⟨_, rfl⟩, a⟩, by omega, c⟩
        · rintro ⟨⟨_, a⟩, b, c⟩; exact ⟨a, by omega, c⟩
    · simp [runStages, allOk]
    · simp [runStages, allOk]

theorem runStages_ok' (l : List (Res (Option DataSel))) (t : DataSel) :
    runStages 0 .unset l = .ok t ↔
      allOk l ∧ ((found l = [] ∧ t = .unset) ∨ found l = [t]) := by
  rw [runStages_ok]
  refine and_congr_right fun _ => ?_
  rcases found l with _ | ⟨a, _ | ⟨b, r⟩⟩
  · simp
  · simp [eq_comm]
  · simp

theorem constant_spec (o : ForcingOpts) : constantStage o = .ok (o.constant.map .constant) := rfl

/-- What a stage finds, by cases. -/
theorem rasterStage_spec (o : ForcingOpts) (hs : ∀ d, o.rasterDate = some d → d.length ≤ 5) :
    (RasterIncomplete o ∧ rasterStage o = .error) ∨
    (¬ RasterIncomplete o ∧ ((rasterStage o = .ok none ∧ ∀ dir d, ¬ Asks o (.raster dir d)) ∨
      ∃ dir d, rasterStage o = .ok (some (.raster dir d)) ∧ Asks o (.raster dir d) ∧
        ∀ dir' d', Asks o (.raster dir' d') → dir' = dir ∧ d' = d)) := by
  unfold rasterStage RasterIncomplete Asks
  rcases hd : o.rasterDate with _ | d
  · simp
  · have hl := hs d hd
    dsimp only
    rw [List.take_of_length_le hl]
    by_cases h5 : d.length = 5
    · rcases hr : o.rasterDir with _ | dir
      · simp [h5]
      · simp only [h5, ne_eq, not_true_eq_false, if_false]
        right
        refine ⟨by simp [h5], Or.inr ⟨dir, d, rfl, ⟨rfl, rfl, h5⟩, ?_⟩⟩
        rintro dir' d' ⟨h1, h2, _⟩
        simp only [Option.some.injEq] at h1 h2
        exact ⟨h1.symm, h2.symm⟩
    · left
      simp only [ne_eq, h5, not_false_eq_true, if_true, and_true]
      exact ⟨d, rfl, Or.inr h5⟩

theorem unsStage_spec (o : ForcingOpts) (hs : ∀ d, o.unsDate = some d → d.length ≤ 5) :
    (UnsIncomplete o ∧ unsStage o = .error) ∨
    (¬ UnsIncomplete o ∧ ((unsStage o = .ok none ∧ ∀ dir m d, ¬ Asks o (.unstructured dir m d)) ∨
      ∃ dir m d, unsStage o = .ok (some (.unstructured dir m d)) ∧ Asks o (.unstructured dir m d) ∧
        ∀ dir' m' d', Asks o (.unstructured dir' m' d') → dir' = dir ∧ m' = m ∧ d' = d)) := by
  unfold unsStage UnsIncomplete Asks
  rcases hd : o.unsDate with _ | d
  · simp
  · have hl := hs d hd
    dsimp only
    rw [List.take_of_length_le hl]
    by_cases h5 : d.length = 5
    · rcases hr : o.unsDir with _ | dir
      · simp [h5]
      · rcases hm : o.unsMesh with _ | m
        · simp [h5]
        · simp only [h5, ne_eq, not_true_eq_false, if_false]
          right
          refine ⟨by simp [h5], Or.inr ⟨dir, m, d, rfl, ⟨rfl, rfl, rfl, h5⟩, ?_⟩⟩
          rintro dir' m' d' ⟨h1, h2, h3, _⟩
          simp only [Option.some.injEq] at h1 h2 h3
          exact ⟨h1.symm, h2.symm, h3.symm⟩
    · left
      simp only [ne_eq, h5, not_false_eq_true, if_true, and_true]
      exact ⟨d, rfl, Or.inr (Or.inr h5)⟩

theorem multiStage_spec (o : ForcingOpts) (hf : ∀ l, o.files = some l → l.length ≤ 20)
    (hi : ∀ l, o.ids = some l → l.length ≤ 20) :
    (MultiIncomplete o ∧ multiStage o = .error) ∨
    (¬ MultiIncomplete o ∧ ((multiStage o = .ok none ∧ ∀ l, ¬ Asks o (.multi l)) ∨
      ∃ l, multiStage o = .ok (some (.multi l)) ∧ Asks o (.multi l) ∧
        ∀ l', Asks o (.multi l') → l' = l)) := by
  unfold multiStage MultiIncomplete Asks
  rcases hfs : o.files with _ | fs
  · rcases his : o.ids with _ | is
    · simp
    · simp
  · rcases his : o.ids with _ | is
    · simp
    · dsimp only
      rw [List.take_of_length_le (hf fs hfs), List.take_of_length_le (hi is his)]
      by_cases hl : fs.length = is.length
      · right
        simp only [hl, ne_eq, not_true_eq_false, if_false]
        refine ⟨by simp [hl], Or.inr ⟨fs.zip is, rfl, ⟨fs, is, rfl, rfl, hl, rfl⟩, ?_⟩⟩
        rintro l' ⟨fs', is', h1, h2, _, rfl⟩
        simp only [Option.some.injEq] at h1 h2
        rw [h1, h2]
      · left
        simp [hl]

/-- Specification of the selection: nothing is incomplete, and either nothing is asked for and nothing
selected, or `s` is asked for and nothing else is (`ok` restricts the kinds of datasets). -/
def Selected (ok : DataSel → Prop) (o : ForcingOpts) (s : DataSel) : Prop :=
  (s = .unset ∧ ∀ s', ok s' → ¬ Asks o s') ∨ (ok s ∧ Asks o s ∧ ∀ s', ok s' → Asks o s' → s' = s)

theorem selected_of {ok : DataSel → Prop} {o : ForcingOpts} {l : List DataSel} {s : DataSel}
    (hm : ∀ s', s' ∈ l ↔ ok s' ∧ Asks o s') (hn : l.Nodup) :
    ((l = [] ∧ s = .unset) ∨ l = [s]) ↔ Selected ok o s := by
  unfold Selected
  constructor
  · rintro (⟨h1, h2⟩ | h)
    · left
      exact ⟨h2, fun s' a b => by have := (hm s').2 ⟨a, b⟩; rw [h1] at this; simp at this⟩
    · right
      have := (hm s).1 (by rw [h]; simp)
      exact ⟨this.1, this.2, fun s' a b => by
        have := (hm s').2 ⟨a, b⟩; rw [h] at this; simpa using this⟩
  · rintro (⟨h1, h2⟩ | ⟨h1, h2, h3⟩)
    · left
      refine ⟨List.eq_nil_iff_forall_not_mem.2 fun s' h => ?_, h1⟩
      have := (hm s').1 h
      exact h2 s' this.1 this.2
    · right
      have h4 := (hm s).2 ⟨h1, h2⟩
      rcases l with _ | ⟨a, _ | ⟨b, r⟩⟩
      · simp at h4
      · rw [List.mem_singleton] at h4; rw [h4]
      · have ha := (hm a).1 (by simp)
        have hb := (hm b).1 (by simp)
        have e1 := h3 a ha.1 ha.2
        have e2 := h3 b hb.1 hb.2
        subst e1
        subst e2
        simp at hn

/-- Datasets that can be used at boundaries. -/
def DataSel.boundary : DataSel → Prop
  | .constant _ => False
  | .raster _ _ => False
  | _ => True

theorem mem_found (l : List (Res (Option DataSel))) (s : DataSel) :
    s ∈ found l ↔ Res.ok (some s) ∈ l := by
  induction l with
  | nil => simp [found]
  | cons x l ih =>
    rcases x with (_ | s') | _ | _
    · simp [found, ih]
    · simp [found, ih]
    · simp [found, ih]
    · simp [found, ih]

/-- The kind of a dataset. -/
def DataSel.kind : DataSel → ℕ
  | .unset => 0
  | .constant _ => 1
  | .homogeneous _ => 2
  | .raster _ _ => 3
  | .unstructured _ _ _ => 4
  | .multi _ => 5

theorem constantStage_kind (o : ForcingOpts) (s : DataSel) (h : constantStage o = .ok (some s)) :
    s.kind = 1 := by
  unfold constantStage at h
  rcases hc : o.constant with _ | r
  · rw [hc] at h; simp at h
  · rw [hc] at h; simp at h; rw [← h]; rfl

theorem homStage_kind (o : ForcingOpts) (s : DataSel) (h : homStage o = .ok (some s)) :
    s.kind = 2 := by
  unfold homStage at h
  rcases hc : o.homFile with _ | r
  · rw [hc] at h; simp at h
  · rw [hc] at h; simp at h; rw [← h]; rfl

theorem rasterStage_kind (o : ForcingOpts) (s : DataSel) (h : rasterStage o = .ok (some s)) :
    s.kind = 3 := by
  unfold rasterStage at h
  split at h
  · simp at h
  · split at h
    · simp at h
    · split at h
      · simp at h
      · simp at h; rw [← h]; rfl

theorem unsStage_kind (o : ForcingOpts) (s : DataSel) (h : unsStage o = .ok (some s)) :
    s.kind = 4 := by
  unfold unsStage at h
  split at h
  · simp at h
  · split at h
    · simp at h
    · split at h
      · simp at h
      · split at h
        · simp at h
        · simp at h; rw [← h]; rfl

theorem multiStage_kind (o : ForcingOpts) (s : DataSel) (h : multiStage o = .ok (some s)) :
    s.kind = 5 := by
  unfold multiStage at h
  split at h
  · simp at h
  · split at h
    · simp at h
    · simp at h; rw [← h]; rfl
  · simp at h

theorem found_nodup (l : List (Res (Option DataSel)))
    (h : l.Pairwise fun x y => ∀ s t, x = .ok (some s) → y = .ok (some t) → s.kind < t.kind) :
    (found l).Nodup := by
  induction l with
  | nil => simp [found]
  | cons x l ih =>
    rw [List.pairwise_cons] at h
    rcases x with (_ | s') | _ | _
    · exact ih h.2
    · simp only [found, List.nodup_cons]
      refine ⟨fun hm => ?_, ih h.2⟩
      rw [mem_found] at hm
      have := h.1 _ hm s' s' rfl rfl
      omega
    · exact ih h.2
    · exact ih h.2

theorem asks_constant (o : ForcingOpts) (s : DataSel) (h : s.kind = 1) :
    constantStage o = .ok (some s) ↔ Asks o s := by
  rcases s with _ | r | _ | _ | _ | _ <;> simp [DataSel.kind] at h
  simp [constantStage, Asks]

theorem asks_hom (o : ForcingOpts) (s : DataSel) (h : s.kind = 2) :
    homStage o = .ok (some s) ↔ Asks o s := by
  rcases s with _ | r | _ | _ | _ | _ <;> simp [DataSel.kind] at h
  simp [homStage, Asks]

theorem asks_raster (o : ForcingOpts) (hs : ∀ d, o.rasterDate = some d → d.length ≤ 5)
    (hi : ¬ RasterIncomplete o) (s : DataSel) (h : s.kind = 3) :
    rasterStage o = .ok (some s) ↔ Asks o s := by
  rcases s with _ | _ | _ | ⟨dir, d⟩ | _ | _ <;> simp [DataSel.kind] at h
  rcases rasterStage_spec o hs with ⟨a, _⟩ | ⟨_, ⟨b, c⟩ | ⟨dir', d', b, c, e⟩⟩
  · exact absurd a hi
  · rw [b]; simp [c dir d]
  · rw [b]
    constructor
    · intro g; simp at g; rw [← g.1, ← g.2]; exact c
    · intro g; obtain ⟨g1, g2⟩ := e _ _ g; rw [g1, g2]

theorem asks_uns (o : ForcingOpts) (hs : ∀ d, o.unsDate = some d → d.length ≤ 5)
    (hi : ¬ UnsIncomplete o) (s : DataSel) (h : s.kind = 4) :
    unsStage o = .ok (some s) ↔ Asks o s := by
  rcases s with _ | _ | _ | _ | ⟨dir, m, d⟩ | _ <;> simp [DataSel.kind] at h
  rcases unsStage_spec o hs with ⟨a, _⟩ | ⟨_, ⟨b, c⟩ | ⟨dir', m', d', b, c, e⟩⟩
  · exact absurd a hi
  · rw [b]; simp [c dir m d]
  · rw [b]
    constructor
    · intro g; simp at g; rw [← g.1, ← g.2.1, ← g.2.2]; exact c
    · intro g; obtain ⟨g1, g2, g3⟩ := e _ _ _ g; rw [g1, g2, g3]

theorem asks_multi (o : ForcingOpts) (hf : ∀ l, o.files = some l → l.length ≤ 20)
    (hs : ∀ l, o.ids = some l → l.length ≤ 20) (hi : ¬ MultiIncomplete o) (s : DataSel)
    (h : s.kind = 5) : multiStage o = .ok (some s) ↔ Asks o s := by
  rcases s with _ | _ | _ | _ | _ | l <;> simp [DataSel.kind] at h
  rcases multiStage_spec o hf hs with ⟨a, _⟩ | ⟨_, ⟨b, c⟩ | ⟨l', b, c, e⟩⟩
  · exact absurd a hi
  · rw [b]; simp [c l]
  · rw [b]
    constructor
    · intro g; simp at g; rw [← g]; exact c
    · intro g; rw [e _ g]

theorem kind_cases (s : DataSel) : s.kind = 0 ∨ s.kind = 1 ∨ s.kind = 2 ∨ s.kind = 3 ∨ s.kind = 4 ∨
    s.kind = 5 := by cases s <;> simp [DataSel.kind]

theorem stage_ok_of (x : Res (Option DataSel)) {P : Prop} {A B : Prop}
    (h : (P ∧ x = .error) ∨ (¬ P ∧ ((x = .ok none ∧ A) ∨ B))) (hB : B → ∃ o, x = .ok o) :
    (∃ o, x = .ok o) ↔ ¬ P := by
  constructor
  · rintro ⟨o, ho⟩ hP
    rcases h with ⟨_, h⟩ | ⟨h, _⟩
    · rw [h] at ho; simp at ho
    · exact h hP
  · intro hP
    rcases h with ⟨h, _⟩ | ⟨_, ⟨h, _⟩ | h⟩
    · exact absurd h hP
    · exact ⟨_, h⟩
    · exact hB h

/-- C87 (rainfall), the part that holds. With no more than 20 files and five numbers in a date: the
program accepts the options and selects `s` if and only if no description is incomplete, and either no
dataset is described and none is selected, or `s` is the only dataset described. In particular two
datasets are never accepted, and nothing that is described completely is left out. What is missing:
directories without start dates (`C87_ignored_violated`) and longer lists
(`C87_truncated_violated`). -/
theorem C87_rain_partial (o : ForcingOpts) (hs : ShortLists o) (s : DataSel) :
    parseRain o = .ok s ↔ ¬ RasterIncomplete o ∧ ¬ UnsIncomplete o ∧ ¬ MultiIncomplete o ∧
      Selected (fun _ => True) o s := by
  obtain ⟨s1, s2, s3, s4⟩ := hs
  unfold parseRain
  rw [runStages_ok']
  have okR : (∃ x, rasterStage o = .ok x) ↔ ¬ RasterIncomplete o :=
    stage_ok_of _ (rasterStage_spec o s1) (by rintro ⟨_, _, h, _⟩; exact ⟨_, h⟩)
  have okU : (∃ x, unsStage o = .ok x) ↔ ¬ UnsIncomplete o :=
    stage_ok_of _ (unsStage_spec o s2) (by rintro ⟨_, _, _, h, _⟩; exact ⟨_, h⟩)
  have okM : (∃ x, multiStage o = .ok x) ↔ ¬ MultiIncomplete o :=
    stage_ok_of _ (multiStage_spec o s3 s4) (by rintro ⟨_, h, _⟩; exact ⟨_, h⟩)
  have hall : allOk [constantStage o, homStage o, rasterStage o, unsStage o, multiStage o] ↔
      ¬ RasterIncomplete o ∧ ¬ UnsIncomplete o ∧ ¬ MultiIncomplete o := by
    unfold allOk
    simp only [List.mem_cons, List.not_mem_nil, or_false, forall_eq_or_imp, forall_eq]
    rw [okR, okU, okM]
    simp [constantStage, homStage]
  rw [hall]
  rw [and_assoc, and_assoc]
  refine and_congr_right fun hR => and_congr_right fun hU => and_congr_right fun hM => ?_
  refine selected_of ?_ ?_
  · intro s'
    rw [mem_found]
    simp only [List.mem_cons, List.not_mem_nil, or_false, true_and]
    have e1 := constantStage_kind o s'
    have e2 := homStage_kind o s'
    have e3 := rasterStage_kind o s'
    have e4 := unsStage_kind o s'
    have e5 := multiStage_kind o s'
    rcases kind_cases s' with hk | hk | hk | hk | hk | hk
    · have : ¬ Asks o s' := by cases s' <;> simp [DataSel.kind] at hk; simp [Asks]
      constructor
      · rintro (h | h | h | h | h)
        · have := e1 h.symm; omega
        · have := e2 h.symm; omega
        · have := e3 h.symm; omega
        · have := e4 h.symm; omega
        · have := e5 h.symm; omega
      · intro h; exact absurd h this
    · rw [← asks_constant o s' hk]
      constructor
      · rintro (h | h | h | h | h)
        · exact h.symm
        · have := e2 h.symm; omega
        · have := e3 h.symm; omega
        · have := e4 h.symm; omega
        · have := e5 h.symm; omega
      · intro h; exact Or.inl h.symm
    · rw [← asks_hom o s' hk]
      constructor
      · rintro (h | h | h | h | h)
        · have := e1 h.symm; omega
        · exact h.symm
        · have := e3 h.symm; omega
        · have := e4 h.symm; omega
        · have := e5 h.symm; omega
      · intro h; exact Or.inr (Or.inl h.symm)
    · rw [← asks_raster o s1 hR s' hk]
      constructor
      · rintro (h | h | h | h | h)
        · have := e1 h.symm; omega
        · have := e2 h.symm; omega
        · exact h.symm
        · have := e4 h.symm; omega
        · have := e5 h.symm; omega
      · intro h; exact Or.inr (Or.inr (Or.inl h.symm))
    · rw [← asks_uns o s2 hU s' hk]
      constructor
      · rintro (h | h | h | h | h)
        · have := e1 h.symm; omega
        · have := e2 h.symm; omega
        · have := e3 h.symm; omega
        · exact h.symm
        · have := e5 h.symm; omega
      · intro h; exact Or.inr (Or.inr (Or.inr (Or.inl h.symm)))
    · rw [← asks_multi o s3 s4 hM s' hk]
      constructor
      · rintro (h | h | h | h | h)
        · have := e1 h.symm; omega
        · have := e2 h.symm; omega
        · have := e3 h.symm; omega
        · have := e4 h.symm; omega
        · exact h.symm
      · intro h; exact Or.inr (Or.inr (Or.inr (Or.inr h.symm)))
  · refine found_nodup _ ?_
    simp only [List.pairwise_cons, List.mem_cons, List.not_mem_nil, or_false, forall_eq_or_imp,
      forall_eq, List.Pairwise.nil, and_true, false_imp_iff, implies_true]
    have k1 := constantStage_kind o
    have k2 := homStage_kind o
    have k3 := rasterStage_kind o
    have k4 := unsStage_kind o
    have k5 := multiStage_kind o
    refine ⟨⟨?_, ?_, ?_, ?_⟩, ⟨?_, ?_, ?_⟩, ⟨?_, ?_⟩, ?_⟩ <;> intro a b ha hb
    · rw [k1 a ha, k2 b hb]; omega
    · rw [k1 a ha, k3 b hb]; omega
    · rw [k1 a ha, k4 b hb]; omega
    · rw [k1 a ha, k5 b hb]; omega
    · rw [k2 a ha, k3 b hb]; omega
    · rw [k2 a ha, k4 b hb]; omega
    · rw [k2 a ha, k5 b hb]; omega
    · rw [k3 a ha, k4 b hb]; omega
    · rw [k3 a ha, k5 b hb]; omega
    · rw [k4 a ha, k5 b hb]; omega

/-- Options that are not given. -/
def noOpts : ForcingOpts := ⟨none, none, none, none, none, none, none, none, none⟩

/-- A raster with directory and start date is selected; together with a constant rate it is refused. -/
example : parseRain { noOpts with rasterDir := some ['d'], rasterDate := some [2017, 8, 26, 0, 0] } =
      .ok (.raster ['d'] [2017, 8, 26, 0, 0]) ∧
    ∀ s, parseRain { noOpts with rasterDir := some ['d'], rasterDate := some [2017, 8, 26, 0, 0],
                                 constant := some 1 } ≠ .ok s := by
  constructor
  · rw [C87_rain_partial _ (by simp [ShortLists, noOpts])]
    refine ⟨by simp [RasterIncomplete], by simp [UnsIncomplete, noOpts],
      by simp [MultiIncomplete, noOpts], Or.inr ⟨trivial, by simp [Asks], ?_⟩⟩
    intro s' _ h
    cases s' <;> simp_all [Asks, noOpts]
  · intro s h
    rw [C87_rain_partial _ (by simp [ShortLists, noOpts])] at h
    rcases h.2.2.2 with ⟨_, h⟩ | ⟨_, _, h⟩
    · exact h (.constant 1) trivial (by simp [Asks])
    · have h1 := h (.constant 1) trivial (by simp [Asks])
      have h2 := h (.raster ['d'] [2017, 8, 26, 0, 0]) trivial (by simp [Asks])
      rw [← h1] at h2
      simp at h2

/-- C87 (boundary data), the part that holds: the same, with homogeneous, unstructured and multiple
homogeneous datasets. -/
theorem C87_boundary_partial (o : ForcingOpts) (hs : ShortLists o) (s : DataSel) :
    parseBoundary o = .ok s ↔ ¬ UnsIncomplete o ∧ ¬ MultiIncomplete o ∧
      Selected DataSel.boundary o s := by
  obtain ⟨s1, s2, s3, s4⟩ := hs
  unfold parseBoundary
  rw [runStages_ok']
  have okU : (∃ x, unsStage o = .ok x) ↔ ¬ UnsIncomplete o :=
    stage_ok_of _ (unsStage_spec o s2) (by rintro ⟨_, _, _, h, _⟩; exact ⟨_, h⟩)
  have okM : (∃ x, multiStage o = .ok x) ↔ ¬ MultiIncomplete o :=
    stage_ok_of _ (multiStage_spec o s3 s4) (by rintro ⟨_, h, _⟩; exact ⟨_, h⟩)
  have hall : allOk [homStage o, unsStage o, multiStage o] ↔
      ¬ UnsIncomplete o ∧ ¬ MultiIncomplete o := by
    unfold allOk
    simp only [List.mem_cons, List.not_mem_nil, or_false, forall_eq_or_imp, forall_eq]
    rw [okU, okM]
    simp [homStage]
  rw [hall]
  rw [and_assoc]
  refine and_congr_right fun hU => and_congr_right fun hM => ?_
  refine selected_of ?_ ?_
  · intro s'
    rw [mem_found]
    simp only [List.mem_cons, List.not_mem_nil, or_false]
    have e2 := homStage_kind o s'
    have e4 := unsStage_kind o s'
    have e5 := multiStage_kind o s'
    have hb : s'.boundary ↔ s'.kind ≠ 1 ∧ s'.kind ≠ 3 := by
      cases s' <;> simp [DataSel.boundary, DataSel.kind]
    rw [hb]
    rcases kind_cases s' with hk | hk | hk | hk | hk | hk
    · have : ¬ Asks o s' := by cases s' <;> simp [DataSel.kind] at hk; simp [Asks]
      constructor
      · rintro (h | h | h)
        · have := e2 h.symm; omega
        · have := e4 h.symm; omega
        · have := e5 h.symm; omega
      · intro h; exact absurd h.2 this
    · constructor
      · rintro (h | h | h)
        · have := e2 h.symm; omega
        · have := e4 h.symm; omega
        · have := e5 h.symm; omega
      · intro h; exact absurd hk h.1.1
    · rw [← asks_hom o s' hk]
      constructor
      · rintro (h | h | h)
        · exact ⟨by omega, h.symm⟩
        · have := e4 h.symm; omega
        · have := e5 h.symm; omega
      · intro h; exact Or.inl h.2.symm
    · constructor
      · rintro (h | h | h)
        · have := e2 h.symm; omega
        · have := e4 h.symm; omega
        · have := e5 h.symm; omega
      · intro h; exact absurd hk h.1.2
    · rw [← asks_uns o s2 hU s' hk]
      constructor
      · rintro (h | h | h)
        · have := e2 h.symm; omega
        · exact ⟨by omega, h.symm⟩
        · have := e5 h.symm; omega
      · intro h; exact Or.inr (Or.inl h.2.symm)
    · rw [← asks_multi o s3 s4 hM s' hk]
      constructor
      · rintro (h | h | h)
        · have := e2 h.symm; omega
        · have := e4 h.symm; omega
        · exact ⟨by omega, h.symm⟩
      · intro h; exact Or.inr (Or.inr h.2.symm)
  · refine found_nodup _ ?_
    simp only [List.pairwise_cons, List.mem_cons, List.not_mem_nil, or_false, forall_eq_or_imp,
      forall_eq, List.Pairwise.nil, and_true, false_imp_iff, implies_true]
    have k2 := homStage_kind o
    have k4 := unsStage_kind o
    have k5 := multiStage_kind o
    refine ⟨⟨?_, ?_⟩, ?_⟩ <;> intro a b ha hb
    · rw [k2 a ha, k4 b hb]; omega
    · rw [k2 a ha, k5 b hb]; omega
    · rw [k4 a ha, k5 b hb]; omega

/-- Two files for boundaries 3 and 7. -/
example : parseBoundary { noOpts with files := some [['a'], ['b']], ids := some [3, 7] } =
    .ok (.multi [(['a'], 3), (['b'], 7)]) := by
  rw [C87_boundary_partial _ (by simp [ShortLists, noOpts])]
  refine ⟨by simp [UnsIncomplete, noOpts], by simp [MultiIncomplete],
    Or.inr ⟨trivial, by simp [Asks], ?_⟩⟩
  intro s' _ h
  cases s' <;> simp_all [Asks, noOpts]

/-- C87 (violated): a directory with rainfall or boundary data is ignored without a message if the start
date is not given (or is misspelt): the run has no rain. -/
theorem C87_ignored_violated (d m : Str) :
    parseRain { noOpts with rasterDir := some d } = .ok .unset ∧
    parseRain { noOpts with unsDir := some d, unsMesh := some m } = .ok .unset ∧
    parseBoundary { noOpts with unsDir := some d, unsMesh := some m } = .ok .unset :=
  ⟨rfl, rfl, rfl⟩

/-- C87 (violated): of more than 20 files (and regions) only the first 20 are used, without a message;
it does not even matter whether there are as many regions as files. -/
theorem C87_truncated_violated (fs : List Str) (is : List ℤ) (hf : 20 < fs.length)
    (hi : 20 ≤ is.length) :
    ∃ l, parseRain { noOpts with files := some fs, ids := some is } = .ok (.multi l) ∧
      l.length = 20 ∧ l.length < fs.length := by
  have h1 : (fs.take 20).length = 20 := by rw [List.length_take]; omega
  have h2 : (is.take 20).length = 20 := by rw [List.length_take]; omega
  refine ⟨(fs.take 20).zip (is.take 20), ?_, ?_, ?_⟩
  · have hm : multiStage { noOpts with files := some fs, ids := some is } =
        .ok (some (.multi ((fs.take 20).zip (is.take 20)))) := by
      unfold multiStage
      dsimp only
      rw [h1, h2, if_neg (by simp)]
    unfold parseRain
    rw [hm]
    rfl
  · rw [List.length_zip, h1, h2]; rfl
  · rw [List.length_zip, h1, h2]; simpa using hf

example : ∃ l, parseRain
    { noOpts with files := some (List.replicate 21 ['f']), ids := some ((List.range' 1 20).map Int.ofNat) } =
    .ok (.multi l) ∧ l.length = 20 ∧
    l.length < (List.replicate 21 ['f']).length :=
  C87_truncated_violated _ _ (by simp) (by simp)

/-- C87 (map files), the part that holds: if only one of the two options is given, that file is read
(written) and no other. What is missing: both options (`C87_map_files_violated`) and boundaries
(`C87_boundary_map_violated`). -/
theorem C87_map_files_partial (f : Str) :
    rainMapActions (some f) none = ⟨none, some f⟩ ∧ rainMapActions none (some f) = ⟨some f, none⟩ ∧
    rainMapActions none none = ⟨none, none⟩ := ⟨rfl, rfl, rfl⟩

example : rainMapActions (some ['m']) none = ⟨none, some ['m']⟩ := (C87_map_files_partial ['m']).1

/-- C87 (violated): if both options are given, the file to be written is not written; the file that was
to be read is overwritten. -/
theorem C87_map_files_violated (w r : Str) (h : w ≠ r) :
    (rainMapActions (some w) (some r)).writes = some r ∧
    (rainMapActions (some w) (some r)).writes ≠ some w := by
  refine ⟨rfl, fun g => h ?_⟩
  simp [rainMapActions] at g
  exact g.symm

/-- C87 (violated): `-unstructured_bc_read_map_file` and `-unstructured_bc_write_map_file` are accepted
and have no effect. -/
theorem C87_boundary_map_violated (w r : Str) :
    boundaryMapActions (some w) (some r) = ⟨none, none⟩ := rfl

end RDy
