import Verif.Model.AmrRun
import Verif.Props.Amr
import Verif.Props.Fields
import Verif.Props.Data
import Verif.Props.Forcing
import Mathlib.Tactic

/-!
# C94: refinement changes the mesh and nothing else

Specification: the clock of the run is the same before and after (`RunClock` as a value); the cells
refined are those that were marked; every quantity that belongs to cells has, in a fine cell, the value
it had in the coarse cell that contains it (`par`); what is applied every step goes on.
-/

noncomputable section

namespace RDy

/-! ## The clock -/

/-- C94 (clock, partial): without the option `-ts_dt`, time, step number and time step are the same
after refinement; with it, time, step number and the solver's step still are.

Missing from the full property: the step of the program with `-ts_dt`, next theorem. -/
theorem C94_clock_partial (opt : Option ℝ) (c : RunClock) :
    (refineClock opt c).time = c.time ∧ (refineClock opt c).step = c.step ∧
    (refineClock opt c).tsDt = c.tsDt ∧ (opt = none → refineClock opt c = c) := by
  refine ⟨rfl, rfl, rfl, ?_⟩
  rintro rfl
  rfl

example : refineClock none ⟨3600, 12, 300, 250⟩ = ⟨3600, 12, 300, 250⟩ := rfl

/-- C94 (clock, violated): with `-ts_dt d`, refinement sets the time step with which the next
`RDyAdvance` starts (and that `RDyGetTimeStep` reports) back to `d`, whatever the adaptive time step had
become. -/
theorem C94_clock_violated (d : ℝ) (c : RunClock) (h : c.dt ≠ d) :
    (refineClock (some d) c).dt = d ∧ (refineClock (some d) c).dt ≠ c.dt :=
  ⟨rfl, fun e => h e.symm⟩

example : (refineClock (some 1) ⟨3600, 900, 8, 8⟩).dt = 1 ∧ (8 : ℝ) ≠ 1 := ⟨rfl, by norm_num⟩

/-! ## The cells that are refined -/

/-- C94 (marked cells): after marking, with as many marks as there are owned cells, a local cell is
labelled exactly if it is an owned cell that was marked; the marks are used once. -/
theorem C94_marked (debug : Bool) (numLocal numOwned : ℕ) (own : ℕ → Bool) (o2l : ℕ → ℕ)
    (cent : ℕ → ℝ × ℝ) (refine : List Bool) (hl : refine.length = numOwned) :
    ∃ m lab, markCells debug numOwned refine = .ok m ∧
      adaptLabel numLocal numOwned own o2l cent m = .ok (lab, Marks.none) ∧
      ∀ l, l ∈ lab ↔ ∃ c, o2l c = l ∧ refine[c]? = some true := by
  refine ⟨⟨true, refine⟩, ((List.range numOwned).filter fun c => refine.getD c false).map o2l,
    ?_, ?_, ?_⟩
  · unfold markCells
    rw [if_neg (by simp [hl])]
  · unfold adaptLabel
    rw [if_pos rfl, if_neg (by simp [hl])]
  · intro l
    simp only [List.mem_map, List.mem_filter, List.mem_range]
    constructor
    · rintro ⟨c, ⟨h1, h2⟩, rfl⟩
      refine ⟨c, rfl, ?_⟩
      rw [← hl] at h1
      rw [List.getD_eq_getElem?_getD, List.getElem?_eq_getElem h1] at h2
      rw [List.getElem?_eq_getElem h1]
      simpa using h2
    · rintro ⟨c, rfl, h⟩
      obtain ⟨h1, h2⟩ := List.getElem?_eq_some_iff.1 h
      refine ⟨c, ⟨by rw [← hl]; exact h1, ?_⟩, rfl⟩
      rw [List.getD_eq_getElem?_getD, h]
      rfl

example : [true, false, true].length = 3 ∧
    ∃ lab, adaptLabel 4 3 (fun c => decide (c ≠ 1)) (fun o => if o = 0 then 0 else o + 1)
      (fun _ => (0, 0)) ⟨true, [true, false, true]⟩ = .ok (lab, Marks.none) ∧ lab = [0, 3] := by
  refine ⟨rfl, [0, 3], ?_, rfl⟩
  unfold adaptLabel
  rw [if_pos rfl, if_neg (by simp)]
  simp [List.range_succ]

/-- C94 (unmarked, violated): if no cells were marked (or the marks were used by an earlier refinement),
owned cells in a fixed box are refined all the same. -/
theorem C94_unmarked_violated (numLocal numOwned : ℕ) (own : ℕ → Bool) (o2l : ℕ → ℕ)
    (cent : ℕ → ℝ × ℝ) :
    ∃ lab, adaptLabel numLocal numOwned own o2l cent Marks.none = .ok (lab, Marks.none) ∧
      ∀ c < numLocal, own c = true → 0 ≤ (cent c).1 → (cent c).1 < 1 → 3 ≤ (cent c).2 →
        (cent c).2 ≤ 4 → c ∈ lab := by
  refine ⟨_, by unfold adaptLabel; rw [if_neg (by simp [Marks.none])], ?_⟩
  intro c hc ho h1 h2 h3 h4
  simp only [List.mem_filter, List.mem_range, decide_eq_true_eq]
  exact ⟨hc, ho, ⟨h1, h2⟩, h3, h4⟩

example : (0 : ℝ) ≤ ((1 / 2, 7 / 2) : ℝ × ℝ).1 ∧ ((1 / 2, 7 / 2) : ℝ × ℝ).1 < 1 ∧
    3 ≤ ((1 / 2, 7 / 2) : ℝ × ℝ).2 ∧ ((1 / 2, 7 / 2) : ℝ × ℝ).2 ≤ 4 := by norm_num

/-- C94 (unmarked, partial): cells outside of this box, and cells of other processes, are not labelled
without marks. -/
theorem C94_unmarked_partial (numLocal numOwned : ℕ) (own : ℕ → Bool) (o2l : ℕ → ℕ)
    (cent : ℕ → ℝ × ℝ) (lab : List ℕ) (m : Marks)
    (h : adaptLabel numLocal numOwned own o2l cent Marks.none = .ok (lab, m)) (c : ℕ)
    (hc : own c = false ∨ (cent c).1 < 0 ∨ 1 ≤ (cent c).1 ∨ (cent c).2 < 3 ∨ 4 < (cent c).2) :
    c ∉ lab := by
  unfold adaptLabel at h
  rw [if_neg (by simp [Marks.none])] at h
  simp only [Res.ok.injEq, Prod.mk.injEq] at h
  rw [← h.1]
  simp only [List.mem_filter, List.mem_range, decide_eq_true_eq]
  rintro ⟨_, h1, ⟨h2, h3⟩, h4, h5⟩
  rcases hc with hc | hc | hc | hc | hc
  · rw [h1] at hc; cases hc
  all_goals linarith

example : ((2, 7 / 2) : ℝ × ℝ).1 < 0 ∨ 1 ≤ ((2, 7 / 2) : ℝ × ℝ).1 := by norm_num

/-- C94 (number of marks, violated): in builds without debugging too few marks are accepted, and the
refinement reads past their end. -/
theorem C94_marks_violated (numLocal numOwned : ℕ) (own : ℕ → Bool) (o2l : ℕ → ℕ)
    (cent : ℕ → ℝ × ℝ) (refine : List Bool) (hl : refine.length < numOwned) :
    ∃ m, markCells false numOwned refine = .ok m ∧
      adaptLabel numLocal numOwned own o2l cent m = .ub := by
  refine ⟨⟨true, refine⟩, ?_, ?_⟩
  · unfold markCells; rw [if_neg (by simp)]
  · unfold adaptLabel; rw [if_pos rfl, if_pos hl]

example : [true].length < 3 := by simp

/-- C94 (number of marks, partial): in builds with debugging a wrong number of marks is an error. -/
theorem C94_marks_partial (numOwned : ℕ) (refine : List Bool) :
    markCells true numOwned refine = .error ↔ refine.length ≠ numOwned := by
  unfold markCells
  by_cases h : refine.length = numOwned
  · rw [if_neg (by simp [h])]; simp [h]
  · rw [if_pos ⟨rfl, h⟩]; simp [h]

example : markCells true 3 [true] = .error := (C94_marks_partial 3 [true]).2 (by simp)

/-! ## Values of cells -/

/-- Number of an owned fine cell among the owned fine cells. -/
def fineNumber (own : ℕ → Bool) (par : ℕ → ℕ) (f : ℕ) : ℕ :=
  ((List.range f).filter fun k => own (par k)).length

theorem fineNumber_lt (own : ℕ → Bool) (par : ℕ → ℕ) (a b : ℕ) (h : a < b) (ha : own (par a) = true) :
    fineNumber own par a < fineNumber own par b := by
  unfold fineNumber
  induction b with
  | zero => omega
  | succ b ih =>
    rw [List.range_succ, List.filter_append, List.length_append]
    rcases Nat.lt_or_ge a b with h2 | h2
    · have := ih h2; omega
    · have e : a = b := by omega
      subst e
      simp [ha]

theorem fineNumber_inj (own : ℕ → Bool) (par : ℕ → ℕ) (a b : ℕ) (ha : own (par a) = true)
    (hb : own (par b) = true) (h : fineNumber own par a = fineNumber own par b) : a = b := by
  rcases Nat.lt_trichotomy a b with h1 | h1 | h1
  · have := fineNumber_lt own par a b h1 ha; omega
  · exact h1
  · have := fineNumber_lt own par b a h1 hb; omega

theorem fill_value (a : ℕ → ℝ) (cells : List ℕ) (v : ℝ) (c : ℕ) :
    fill a cells id (fun _ => v) c = if c ∈ cells then v else a c := by
  unfold fill
  induction cells using List.reverseRecOn with
  | nil => simp
  | append_singleton cs x ih =>
    rw [List.foldl_append, List.foldl_cons, List.foldl_nil, Function.update_apply, ih]
    by_cases h : c = x
    · subst h; simp
    · simp [h]

/-- Materials given by values give corresponding cells of corresponding regions the same value. -/
theorem initMaterials_corr {ι : Type} (g k : ι → Region) (is : List ι) (comp : List Assignment)
    (mats : List Material) (hv : ∀ m ∈ mats, ∃ v, m.manning = .value v)
    (hn : ∀ i ∈ is, (g i).name = (k i).name) (f c : ℕ) (hc : ∀ i ∈ is, f ∈ (g i).cells ↔ c ∈ (k i).cells) :
    (initMaterials (is.map g) comp mats = none ↔ initMaterials (is.map k) comp mats = none) ∧
    ∀ a b, initMaterials (is.map g) comp mats = some a → initMaterials (is.map k) comp mats = some b →
      a f = b c := by
  have hchk : materialsChecked (is.map g) comp mats = materialsChecked (is.map k) comp mats := by
    unfold materialsChecked
    rw [List.all_map, List.all_map]
    rw [Bool.eq_iff_iff, List.all_eq_true, List.all_eq_true]
    refine forall₂_congr fun i hi => ?_
    simp only [Function.comp]
    rw [hn i hi]
  have hread : ∀ m ∈ mats, ∀ a b : ℕ → ℝ, a f = b c →
      readMaterial (is.map g) comp m a f = readMaterial (is.map k) comp m b c := by
    intro m hm
    obtain ⟨v, hv⟩ := hv m hm
    unfold readMaterial
    clear hchk
    induction is with
    | nil => intro a b h; simpa using h
    | cons i is ih =>
      intro a b h
      rw [List.map_cons, List.map_cons, List.foldl_cons, List.foldl_cons]
      refine ih (fun j hj => hn j (by simp [hj])) (fun j hj => hc j (by simp [hj])) _ _ ?_
      have hi := hc i (by simp)
      rw [hn i (by simp)]
      clear ih
      induction comp generalizing a b with
      | nil => exact h
      | cons s comp ihc =>
        rw [List.foldl_cons, List.foldl_cons]
        refine ihc _ _ ?_
        by_cases hs : s.region = (k i).name
        · rw [if_pos hs, if_pos hs, hv]
          unfold writeMaterial
          dsimp only
          rw [fill_value, fill_value]
          by_cases hm : c ∈ (k i).cells
          · rw [if_pos hm, if_pos (hi.2 hm)]
          · rw [if_neg hm, if_neg fun h => hm (hi.1 h)]; exact h
        · rw [if_neg hs, if_neg hs]; exact h
  unfold initMaterials
  rw [hchk]
  by_cases hm : materialsChecked (is.map k) comp mats = true
  · rw [if_pos hm, if_pos hm]
    refine ⟨by simp, ?_⟩
    intro a b ha hb
    rw [← Option.some.inj ha, ← Option.some.inj hb]
    have : ∀ (ms : List Material), (∀ m ∈ ms, m ∈ mats) → ∀ a b : ℕ → ℝ, a f = b c →
        ms.foldl (fun a m => readMaterial (is.map g) comp m a) a f =
        ms.foldl (fun a m => readMaterial (is.map k) comp m a) b c := by
      intro ms
      induction ms with
      | nil => intro _ a b h; exact h
      | cons m ms ih =>
        intro hms a b h
        rw [List.foldl_cons, List.foldl_cons]
        exact ih (fun x hx => hms x (by simp [hx])) _ _ (hread m (hms m (by simp)) a b h)
    exact this mats (fun _ h => h) _ _ rfl
  · rw [if_neg hm, if_neg hm]
    exact ⟨Iff.rfl, fun a b ha => by cases ha⟩

/-- One homogeneous source, at one cell: the value if the cell belongs to the region found, otherwise
what was there. -/
theorem setHomogeneous_at (n : ℕ) (hn : 0 < n) (regions : List SrcRegion) (rid : ℤ) (v : ℝ)
    (hid : regions.Pairwise fun r s => r.id ≠ s.id) (hnd : ∀ r ∈ regions, r.owned.Nodup)
    (data : ℕ → ℝ) :
    ∃ d, setHomogeneous n regions rid 0 v data = .ok d ∧
      ∀ o c, c < n → d (n * o + c) =
        if c = 0 ∧ ∃ r ∈ regions, r.id = rid ∧ o ∈ r.owned then v else data (n * o + c) := by
  by_cases hex : ∃ r ∈ regions, r.id = rid
  · obtain ⟨r, hr, rfl⟩ := hex
    have hu : ∀ s ∈ regions, s.id = r.id → s = r := by
      intro s hs he
      by_contra hne
      have : Std.Symm fun r s : SrcRegion => r.id ≠ s.id := ⟨fun _ _ h => Ne.symm h⟩
      exact (hid.forall hs hr hne) he
    obtain ⟨d, e1, e2, e3⟩ := C26_homogeneous n regions r hr hu (hnd r hr) 0 hn v data
    refine ⟨d, e1, fun o c hc => ?_⟩
    by_cases h : c = 0 ∧ ∃ s ∈ regions, s.id = r.id ∧ o ∈ s.owned
    · rw [if_pos h]
      obtain ⟨rfl, s, hs, he, ho⟩ := h
      rw [hu s hs he] at ho
      exact e2 o ho
    · rw [if_neg h]
      refine e3 o c hc ?_
      by_cases h0 : c = 0
      · right; intro ho; exact h ⟨h0, r, hr, rfl, ho⟩
      · left; exact h0
  · refine ⟨data, ?_, fun o c _ => ?_⟩
    · unfold setHomogeneous
      have : regionOfId regions rid = none := by
        unfold regionOfId
        rw [List.find?_eq_none]
        intro r hr he
        exact hex ⟨r, hr, by simpa using he⟩
      rw [this]
    · rw [if_neg]
      rintro ⟨_, r, hr, he, _⟩
      exact hex ⟨r, hr, he⟩

/-- The configured sources are always accepted, and give corresponding cells the same values. -/
theorem initSources_corr {ι : Type} (n : ℕ) (hn : 0 < n) (g k : ι → SrcRegion) (is : List ι)
    (hg : (is.map g).Pairwise fun r s => r.id ≠ s.id) (hk : (is.map k).Pairwise fun r s => r.id ≠ s.id)
    (hgn : ∀ r ∈ is.map g, r.owned.Nodup) (hkn : ∀ r ∈ is.map k, r.owned.Nodup)
    (hid : ∀ i ∈ is, (g i).id = (k i).id) (srcs : List (Option ℝ)) :
    ∃ d e, initSources n (is.map g) srcs (fun _ => 0) = .ok d ∧
      initSources n (is.map k) srcs (fun _ => 0) = .ok e ∧
      ∀ o' o, (∀ i ∈ is, o' ∈ (g i).owned ↔ o ∈ (k i).owned) → ∀ c < n,
        d (n * o' + c) = e (n * o + c) := by
  have key : ∀ (srcs : List (Option ℝ)) (j : ℕ) (a b : ℕ → ℝ),
      ∃ d e, initSourcesFrom n (is.map g) j srcs a = .ok d ∧
        initSourcesFrom n (is.map k) j srcs b = .ok e ∧
        ∀ o' o, (∀ i ∈ is, o' ∈ (g i).owned ↔ o ∈ (k i).owned) →
          (∀ c < n, a (n * o' + c) = b (n * o + c)) → ∀ c < n, d (n * o' + c) = e (n * o + c) := by
    intro srcs
    induction srcs with
    | nil => intro j a b; exact ⟨a, b, rfl, rfl, fun _ _ _ h => h⟩
    | cons s srcs ih =>
      intro j a b
      cases s with
      | none => exact ih (j + 1) a b
      | some v =>
        obtain ⟨d, d1, d2⟩ := setHomogeneous_at n hn (is.map g) j v hg hgn a
        obtain ⟨e, e1, e2⟩ := setHomogeneous_at n hn (is.map k) j v hk hkn b
        obtain ⟨d', e', i1, i2, i3⟩ := ih (j + 1) d e
        refine ⟨d', e', ?_, ?_, ?_⟩
        · unfold initSourcesFrom; rw [d1]; exact i1
        · unfold initSourcesFrom; rw [e1]; exact i2
        · intro o' o ho hab
          refine i3 o' o ho fun c hc => ?_
          rw [d2 o' c hc, e2 o c hc, hab c hc]
          refine if_congr (and_congr_right fun _ => ?_) rfl rfl
          constructor
          · rintro ⟨r, hr, he, hm⟩
            obtain ⟨i, hi, rfl⟩ := List.mem_map.1 hr
            exact ⟨k i, List.mem_map_of_mem hi, by rw [← hid i hi]; exact he, (ho i hi).1 hm⟩
          · rintro ⟨r, hr, he, hm⟩
            obtain ⟨i, hi, rfl⟩ := List.mem_map.1 hr
            exact ⟨g i, List.mem_map_of_mem hi, by rw [hid i hi]; exact he, (ho i hi).2 hm⟩
  obtain ⟨d, e, h1, h2, h3⟩ := key srcs 0 (fun _ => 0) (fun _ => 0)
  exact ⟨d, e, h1, h2, fun o' o ho => h3 o' o ho fun _ _ => rfl⟩

/-- What a list of regions of a process has to be: distinct IDs, local cells of the mesh, each once,
the owned cells among them numbered by `o2l`. -/
structure RegionsOk (nC : ℕ) (own : ℕ → Bool) (o2l : ℤ → ℕ) (regions : List FullRegion) : Prop where
  ids : regions.Pairwise fun r s => r.id ≠ s.id
  cells : ∀ r ∈ regions, ∀ c ∈ r.cells.localIds, c < nC
  nodup : ∀ r ∈ regions, r.cells.localIds.Nodup
  owned : ∀ r ∈ regions, r.cells.ownedIds.map o2l = r.cells.localIds.filter fun c => own c
  nonneg : ∀ r ∈ regions, ∀ g ∈ r.cells.ownedIds, 0 ≤ g
  inj : ∀ r ∈ regions, ∀ g ∈ r.cells.ownedIds, ∀ s ∈ regions, ∀ g' ∈ s.cells.ownedIds,
    o2l g = o2l g' → g = g'

/-- C94 (values of the configuration, partial): with materials given by values, if the setup of the
simulation succeeds then so does the refinement, and every fine cell gets the Manning coefficient and
the sources that the configuration gave to its coarse cell.  (`o` is the number of the coarse cell among
the owned ones.)

Missing from the full property: values set by calls, and materials given by files, below; local cells of
regions of which the process owns no cell (C57), which is the hypothesis `ho`. -/
theorem C94_values_partial (n : ℕ) (hn : 0 < n) (par : ℕ → ℕ) (nC nF : ℕ) (hC : 0 < nC)
    (hpar : ∀ c < nF, par c < nC) (m : FineMap) (hm : coarseToFineMapping par nC nF = some m)
    (own : ℕ → Bool) (o2l : ℤ → ℕ) (regions : List FullRegion) (hr : RegionsOk nC own o2l regions)
    (ho : ∀ r ∈ regions, r.cells.ownedIds ≠ []) (comp : List Assignment) (mats : List Material)
    (hv : ∀ m ∈ mats, ∃ v, m.manning = .value v) (srcs : List (Option ℝ)) (old new old' : CellData)
    (h : refineData n regions comp mats srcs old = .ok new) :
    ∃ new', refineData n (regions.map (FullRegion.refine m o2l fun f => own (par f))) comp mats srcs
        old' = .ok new' ∧
      (∀ f < nF, new'.manning f = new.manning (par f)) ∧
      ∀ f < nF, own (par f) = true → ∀ o : ℕ, (∃ r ∈ regions, (o : ℤ) ∈ r.cells.ownedIds) →
        o2l o = par f → ∀ c < n,
          new'.sources (n * fineNumber own par f + c) = new.sources (n * o + c) := by
  set R : FullRegion → FullRegion := FullRegion.refine m o2l fun f => own (par f) with hR
  have hcells : ∀ r ∈ regions, ∀ f, f ∈ (R r).local.cells ↔ f < nF ∧ par f ∈ r.local.cells := by
    intro r hrr
    exact (C57_region_cells_partial par nC nF hC hpar m hm o2l (fun f => own (par f)) r.cells
      (hr.cells r hrr) (hr.nodup r hrr) (ho r hrr)).1
  have hown : ∀ r ∈ regions, _ := fun r hrr =>
    C57_region_owned par nC nF hC hpar m hm own o2l r.cells (hr.cells r hrr) (hr.nodup r hrr)
      (hr.owned r hrr)
  have hnn : ∀ r ∈ regions, ∀ g ∈ (R r).cells.ownedIds, 0 ≤ g := by
    intro r hrr g hg
    obtain ⟨f, _, _, _, rfl⟩ := ((hown r hrr).1 g).1 hg
    exact Int.natCast_nonneg _
  have nodupNat : ∀ l : List ℤ, (∀ g ∈ l, 0 ≤ g) → l.Nodup → (l.map Int.toNat).Nodup := by
    intro l h0 hd
    rw [List.nodup_map_iff_inj_on hd]
    intro a ha b hb hab
    have := h0 a ha; have := h0 b hb
    omega
  have hsrc := initSources_corr n hn (fun r => (R r).src) FullRegion.src regions
    (by rw [List.pairwise_map]; exact hr.ids) (by rw [List.pairwise_map]; exact hr.ids)
    (by
      intro r hrr
      obtain ⟨s, hs, rfl⟩ := List.mem_map.1 hrr
      exact nodupNat _ (hnn s hs) (hown s hs).2)
    (by
      intro r hrr
      obtain ⟨s, hs, rfl⟩ := List.mem_map.1 hrr
      refine nodupNat _ (hr.nonneg s hs) ?_
      have : (s.cells.ownedIds.map o2l).Nodup := by
        rw [hr.owned s hs]; exact (hr.nodup s hs).filter _
      exact this.of_map)
    (fun _ _ => rfl) srcs
  obtain ⟨d, e, s1, s2, s3⟩ := hsrc
  have hmat := fun f (hf : f < nF) => initMaterials_corr (fun r => (R r).local) FullRegion.local regions
    comp mats hv (fun _ _ => rfl) f (par f) (fun r hrr => by rw [hcells r hrr f]; exact and_iff_right hf)
  have hmat0 : initMaterials (regions.map fun r => (R r).local) comp mats = none ↔
      initMaterials (regions.map FullRegion.local) comp mats = none := by
    unfold initMaterials
    have : materialsChecked (regions.map fun r => (R r).local) comp mats =
        materialsChecked (regions.map FullRegion.local) comp mats := by
      unfold materialsChecked
      rw [List.all_map, List.all_map]
      rfl
    rw [this]
    by_cases hm : materialsChecked (regions.map FullRegion.local) comp mats = true
    · rw [if_pos hm, if_pos hm]; simp
    · rw [if_neg hm, if_neg hm]
  unfold refineData at h ⊢
  rw [List.map_map, List.map_map]
  rcases hb : initMaterials (regions.map FullRegion.local) comp mats with _ | b
  · rw [hb] at h; cases h
  rcases ha : initMaterials (regions.map (FullRegion.local ∘ R)) comp mats with _ | a
  · have := hmat0.1 ha; rw [hb] at this; cases this
  rw [hb, s2] at h
  simp only [Res.ok.injEq] at h
  subst h
  have s1' : initSources n (regions.map (FullRegion.src ∘ R)) srcs (fun _ => 0) = .ok d := s1
  rw [s1']
  refine ⟨⟨a, d⟩, rfl, fun f hf => (hmat f hf).2 a b ha hb, ?_⟩
  intro f hf hof o hoo hpo c hc
  refine s3 _ _ (fun r hrr => ?_) c hc
  change fineNumber own par f ∈ (R r).cells.ownedIds.map Int.toNat ↔ o ∈ r.cells.ownedIds.map Int.toNat
  have hL : fineNumber own par f ∈ (R r).cells.ownedIds.map Int.toNat ↔ par f ∈ r.cells.localIds := by
    rw [List.mem_map]
    constructor
    · rintro ⟨g, hg, he⟩
      obtain ⟨f2, hf2, hp, h1, rfl⟩ := ((hown r hrr).1 g).1 hg
      have : f2 = f := fineNumber_inj own par f2 f h1 hof (by simpa [fineNumber] using he)
      rw [← this]; exact hp
    · intro hp
      exact ⟨_, ((hown r hrr).1 _).2 ⟨f, hf, hp, hof, rfl⟩, by simp [fineNumber]⟩
  rw [hL, List.mem_map]
  constructor
  · intro hp
    have : par f ∈ r.cells.ownedIds.map o2l := by
      rw [hr.owned r hrr, List.mem_filter]; exact ⟨hp, hof⟩
    obtain ⟨g, hg, he⟩ := List.mem_map.1 this
    obtain ⟨s, hs, hos⟩ := hoo
    have := hr.inj r hrr g hg s hs o hos (by rw [he, hpo])
    exact ⟨g, hg, by rw [this]; simp⟩
  · rintro ⟨g, hg, he⟩
    have h0 := hr.nonneg r hrr g hg
    have : g = (o : ℤ) := by omega
    have hm : o2l g ∈ r.cells.ownedIds.map o2l := List.mem_map_of_mem hg
    rw [hr.owned r hrr, List.mem_filter, this, hpo] at hm
    exact hm.1

/-- Two regions of one cell each; the second cell is split in two. -/
def exRegions : List FullRegion := [⟨['a'], 0, [0], [0]⟩, ⟨['b'], 1, [1], [1]⟩]

example : RegionsOk 2 (fun _ => true) Int.toNat exRegions ∧
    (∀ r ∈ exRegions, r.cells.ownedIds ≠ []) ∧ (∀ c < 3, (fun c => c - 1) c < 2) ∧
    ∃ new, refineData 3 exRegions [⟨['a'], ['m']⟩, ⟨['b'], ['m']⟩] [⟨['m'], .value 2⟩]
      [some 5, none] ⟨fun _ => 0, fun _ => 0⟩ = .ok new := by
  refine ⟨⟨by simp [exRegions], by simp [exRegions], by simp [exRegions], by simp [exRegions],
    by simp [exRegions], by simp [exRegions]⟩, by simp [exRegions], by intro c hc; simp; omega, ?_⟩
  unfold refineData initMaterials
  rw [if_pos (by simp [materialsChecked, exRegions, FullRegion.local])]
  exact ⟨_, rfl⟩

/-- C94 (values set by calls, violated): wherever a call had set a Manning coefficient or a source (`set`)
that differs from that of the configuration (`new`), the fine cells do not have it any more. -/
theorem C94_values_violated (n : ℕ) (hn : 0 < n) (par : ℕ → ℕ) (nC nF : ℕ) (hC : 0 < nC)
    (hpar : ∀ c < nF, par c < nC) (m : FineMap) (hm : coarseToFineMapping par nC nF = some m)
    (own : ℕ → Bool) (o2l : ℤ → ℕ) (regions : List FullRegion) (hr : RegionsOk nC own o2l regions)
    (ho : ∀ r ∈ regions, r.cells.ownedIds ≠ []) (comp : List Assignment) (mats : List Material)
    (hv : ∀ m ∈ mats, ∃ v, m.manning = .value v) (srcs : List (Option ℝ)) (old new set : CellData)
    (h : refineData n regions comp mats srcs old = .ok new) :
    ∃ new', refineData n (regions.map (FullRegion.refine m o2l fun f => own (par f))) comp mats srcs
        set = .ok new' ∧
      (∀ f < nF, set.manning (par f) ≠ new.manning (par f) → new'.manning f ≠ set.manning (par f)) ∧
      ∀ f < nF, own (par f) = true → ∀ o : ℕ, (∃ r ∈ regions, (o : ℤ) ∈ r.cells.ownedIds) →
        o2l o = par f → ∀ c < n, set.sources (n * o + c) ≠ new.sources (n * o + c) →
          new'.sources (n * fineNumber own par f + c) ≠ set.sources (n * o + c) := by
  obtain ⟨d, h1, h2, h3⟩ := C94_values_partial n hn par nC nF hC hpar m hm own o2l regions hr ho comp
    mats hv srcs old new set h
  refine ⟨d, h1, fun f hf hne => ?_, fun f hf hof o hoo hpo c hc hne => ?_⟩
  · rw [h2 f hf]; exact Ne.symm hne
  · rw [h3 f hf hof o hoo hpo c hc]; exact Ne.symm hne

/-- A concrete case: a mesh of one cell with the coefficient 2 and no sources in the configuration; the
coefficient is set to 9 and a source of 7 is applied by calls.  Refinement that splits no cell at all
puts 2 and 0 in their places. -/
example : ∃ m new, coarseToFineMapping id 1 1 = some m ∧
      refineData 3 ([⟨['a'], 1, ⟨[0], [0]⟩⟩].map (FullRegion.refine m Int.toNat fun _ => true))
        [⟨['a'], ['m']⟩] [⟨['m'], .value 2⟩] [] ⟨fun _ => 9, fun _ => 7⟩ = .ok new ∧
      new.manning 0 = 2 ∧ new.sources 0 = 0 := by
  obtain ⟨m, e, h1, _, _⟩ := C57_map id 1 1 (by norm_num) (by simp)
  refine ⟨m, ?_⟩
  have hc : m.cellsOf 0 = [0] := by rw [h1 0 (by norm_num)]; simp [fineCells, List.range_succ]
  unfold refineData initMaterials
  rw [if_pos (by simp [materialsChecked, FullRegion.local, FullRegion.refine])]
  refine ⟨_, e, rfl, ?_⟩
  simp [readMaterial, writeMaterial, FullRegion.local, FullRegion.refine, refineRegion, hc, fill]

/-! ## What is applied every step, and files -/

/-- C94 (rainfall, violated): on a mesh whose cells all belong to region 1, once a refinement has changed
the number of owned cells, applying constant, homogeneous, raster or unstructured rainfall is an error:
it still has the number of values of the first mesh. -/
theorem C94_rain_violated (n : ℕ) (hn : 0 < n) (par : ℕ → ℕ) (nC nF : ℕ) (hC : 0 < nC)
    (hF : nF ≠ nC) (hpar : ∀ c < nF, par c < nC) (m : FineMap)
    (hm : coarseToFineMapping par nC nF = some m) (name : Str) (v : ℝ) (data : ℕ → ℝ) :
    applyUniformRain n nC [((FullRegion.mk name 1 ⟨List.range nC, (List.range nC).map (↑)⟩).refine m
      Int.toNat fun _ => true).src] v data = .error := by
  have hown := C57_region_owned par nC nF hC hpar m hm (fun _ => true) Int.toNat
    ⟨List.range nC, (List.range nC).map (↑)⟩ (by simp) List.nodup_range (by
      rw [List.map_map]
      simp [Function.comp_def])
  obtain ⟨m', e, h1, h2, _⟩ := C57_map par nC nF hC hpar
  rw [hm] at e
  have e' : m = m' := by simpa using e
  subst e'
  have hlen : (refineRegion m Int.toNat (fun _ => true)
      ⟨List.range nC, (List.range nC).map (↑)⟩).ownedIds.length = nF := by
    unfold refineRegion
    rw [if_pos (by simpa using hC)]
    simp only [List.length_map]
    have h3 : (((List.range nC).map (Nat.cast : ℕ → ℤ)).flatMap fun g => m.cellsOf g.toNat) =
        (List.range nC).flatMap (fineCells par nF) := by
      rw [List.flatMap_map]
      apply List.flatMap_congr
      intro p hp
      simpa using h1 p (by simpa using hp)
    rw [h3, ← h2]
    simp
  have hnd : ((refineRegion m Int.toNat (fun _ => true)
      ⟨List.range nC, (List.range nC).map (↑)⟩).ownedIds.map Int.toNat).Nodup := by
    rw [List.nodup_map_iff_inj_on hown.2]
    intro a ha b hb hab
    obtain ⟨_, _, _, _, rfl⟩ := (hown.1 a).1 ha
    obtain ⟨_, _, _, _, rfl⟩ := (hown.1 b).1 hb
    simpa using hab
  unfold applyUniformRain
  refine C71_other_regions n hn _ _ (List.mem_singleton_self _) rfl ?_ hnd _ ?_ ?_ data
  · intro s hs _
    exact List.mem_singleton.1 hs
  · change _ ≠ (List.map Int.toNat _).length
    rw [List.length_map, List.length_replicate]
    change nC ≠ (refineRegion _ _ _ _).ownedIds.length
    rw [hlen]
    exact fun h => hF h.symm
  · rw [List.length_replicate]; omega

example : (5 : ℕ) ≠ 2 ∧ ∀ c < 5, (fun c => if c = 0 then 0 else 1) c < 2 := by
  refine ⟨by norm_num, ?_⟩
  intro c _
  dsimp only
  split <;> omega

/-- C94 (files, violated): the elevations that the configuration takes from a file were read for the
first mesh; a refinement that changes the number of cells ends in an error, as the same file is read
again. -/
theorem C94_elevation_violated (nC nF : ℕ) (hF : nF ≠ nC) (file : List ℝ) (z : ℕ → ℝ)
    (h : readElevation nC file = .ok z) : readElevation nF file = .error := by
  unfold readElevation at *
  by_cases hl : file.length = nC
  · rw [if_neg (by rw [hl]; exact fun h => hF h.symm)]
  · rw [if_neg hl] at h; cases h

example : (∃ z, readElevation 2 [1, 2] = .ok z) ∧ (5 : ℕ) ≠ 2 := by
  unfold readElevation
  rw [if_pos (by simp)]
  exact ⟨⟨_, rfl⟩, by norm_num⟩

end RDy
