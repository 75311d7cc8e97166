import Verif.Lemmas.Fields

/-!
Properties of material and initial data (C23, C24, C25).
-/

namespace RDy

/-! ### C23: materials -/

/-- Specification: the value a material prescribes for a cell (a file is indexed by cell). -/
def MatProp.at (m : MatProp) (c : ℕ) : ℝ :=
  match m with
  | .value v => v
  | .file d => d c

/-- Specification: the material assigned to a region. -/
def assigned (comp : List Assignment) (mats : List Material) (r : Region) (m : Material) : Prop :=
  m ∈ mats ∧ ∃ s ∈ comp, s.region = r.name ∧ s.material = m.name

private theorem writeMaterial_value (v : ℝ) (r : Region) (a : ℕ → ℝ) (c : ℕ) :
    writeMaterial (.value v) r a c = if c ∈ r.cells then v else a c := by
  unfold writeMaterial
  split
  · next hc =>
    exact fill_mem a r.cells id (fun _ => v) c hc fun _ _ _ => rfl
  · next hc =>
    exact fill_other a r.cells id (fun _ => v) c fun d hd he => hc (by simpa using he ▸ hd)

private theorem comp_fold (g : (ℕ → ℝ) → (ℕ → ℝ)) (hg : ∀ a, g (g a) = g a)
    (comp : List Assignment) (nm : Str) (a : ℕ → ℝ) :
    comp.foldl (fun a s => if s.region = nm then g a else a) a
      = if (comp.any fun s => decide (s.region = nm)) = true then g a else a := by
  have aux : ∀ (l : List Assignment) (b : ℕ → ℝ), g b = b →
      l.foldl (fun a s => if s.region = nm then g a else a) b = b := by
    intro l
    induction l with
    | nil => intro b _; rfl
    | cons s l ih =>
      intro b hb
      rw [List.foldl_cons]
      by_cases hs : s.region = nm
      · rw [if_pos hs, hb]; exact ih b hb
      · rw [if_neg hs]; exact ih b hb
  induction comp with
  | nil => rfl
  | cons s l ih =>
    rw [List.foldl_cons, List.any_cons]
    by_cases hs : s.region = nm
    · rw [if_pos hs, aux l _ (hg a)]
      simp [hs]
    · rw [if_neg hs, ih]
      simp [hs]

private theorem readMaterial_value (regions : List Region) (comp : List Assignment) (nm : Str) (v : ℝ)
    (a : ℕ → ℝ) (c : ℕ) (hall : ∀ r ∈ regions, ∃ s ∈ comp, s.region = r.name) :
    readMaterial regions comp ⟨nm, .value v⟩ a c
      = if (∃ r ∈ regions, c ∈ r.cells) then v else a c := by
  have hid : ∀ r : Region, ∀ a, writeMaterial (.value v) r (writeMaterial (.value v) r a)
      = writeMaterial (.value v) r a := by
    intro r a; funext k; simp only [writeMaterial_value]; split <;> rfl
  unfold readMaterial
  induction regions using List.reverseRecOn with
  | nil => simp
  | append_singleton rs r ih =>
    have hr : (comp.any fun s => decide (s.region = r.name)) = true := by
      obtain ⟨s, hs, he⟩ := hall r (by simp)
      exact List.any_eq_true.mpr ⟨s, hs, by simpa using he⟩
    rw [List.foldl_append, List.foldl_cons, List.foldl_nil, comp_fold _ (hid r), if_pos hr,
      writeMaterial_value, ih fun r hr => hall r (by simp [hr])]
    by_cases hc : c ∈ r.cells
    · rw [if_pos hc, if_pos ⟨r, by simp, hc⟩]
    · rw [if_neg hc]
      refine if_congr ⟨?_, ?_⟩ rfl rfl
      · rintro ⟨q, hq, h⟩; exact ⟨q, by simp [hq], h⟩
      · rintro ⟨q, hq, h⟩
        rcases List.mem_append.mp hq with hq | hq
        · exact ⟨q, hq, h⟩
        · rw [List.mem_singleton] at hq; subst hq; exact absurd h hc

private theorem checked_iff (regions : List Region) (comp : List Assignment) (mats : List Material) :
    materialsChecked regions comp mats = true ↔ ∀ r ∈ regions, ∃ m, assigned comp mats r m := by
  unfold materialsChecked assigned
  simp only [List.all_eq_true, List.any_eq_true, Bool.and_eq_true, decide_eq_true_eq]
  refine forall_congr' fun r => forall_congr' fun _ => ⟨?_, ?_⟩
  · rintro ⟨s, h1, h2, m, h3, h4⟩; exact ⟨m, h3, s, h1, h2, h4.symm⟩
  · rintro ⟨m, h3, s, h1, h2, h4⟩; exact ⟨s, h1, h2, m, h3, h4.symm⟩

/-- C23 (errors): setup fails exactly if some region has no assigned material. -/
theorem C23_unassigned_is_error (regions : List Region) (comp : List Assignment)
    (mats : List Material) :
    initMaterials regions comp mats = none ↔ ∃ r ∈ regions, ∀ m, ¬ assigned comp mats r m := by
  unfold initMaterials
  by_cases h : materialsChecked regions comp mats = true
  · rw [if_pos h]
    have h2 := (checked_iff regions comp mats).mp h
    constructor
    · intro hn; cases hn
    · rintro ⟨r, hr, hm⟩; obtain ⟨m, h3⟩ := h2 r hr; exact absurd h3 (hm m)
  · rw [if_neg h]
    simp only [true_iff]
    by_contra hc
    push Not at hc
    exact h ((checked_iff regions comp mats).mpr hc)

example : initMaterials [⟨['a'], 1, [0]⟩, ⟨['b'], 2, [1]⟩] [⟨['a'], ['m']⟩] [⟨['m'], .value 1⟩] = none :=
  (C23_unassigned_is_error _ _ _).mpr ⟨⟨['b'], 2, [1]⟩, by simp, by
    rintro m ⟨_, s, hs, h1, _⟩
    simp at hs; subst hs; simp at h1⟩

/-- C23, the part that holds: if all materials have constant values, and these agree (in particular:
if there is just one material), every cell of every region gets the value of the region's material,
and cells outside all regions get 0. What is missing: several different materials
(`C23_two_materials_violated`) and data from files (`C23_file_violated`). -/
theorem C23_material_partial (regions : List Region) (comp : List Assignment) (mats : List Material)
    (v : ℝ) (hv : ∀ m ∈ mats, m.manning = .value v)
    (hall : ∀ r ∈ regions, ∃ m, assigned comp mats r m) :
    ∃ a, initMaterials regions comp mats = some a ∧
      (∀ r ∈ regions, ∀ m, assigned comp mats r m → ∀ c ∈ r.cells, a c = m.manning.at c) ∧
      (∀ c, (∀ r ∈ regions, c ∉ r.cells) → a c = 0) := by
  have hcomp : ∀ r ∈ regions, ∃ s ∈ comp, s.region = r.name := by
    intro r hr; obtain ⟨m, _, s, h1, h2, _⟩ := hall r hr; exact ⟨s, h1, h2⟩
  have key : ∀ (ms : List Material), (∀ m ∈ ms, m.manning = .value v) → ∀ c,
      ms.foldl (fun a m => readMaterial regions comp m a) (fun _ => (0 : ℝ)) c
        = if ms ≠ [] ∧ ∃ r ∈ regions, c ∈ r.cells then v else 0 := by
    intro ms
    induction ms using List.reverseRecOn with
    | nil => intro _ c; simp
    | append_singleton ms m ih =>
      intro hm c
      obtain ⟨nm, mp⟩ := m
      have : mp = .value v := hm ⟨nm, mp⟩ (by simp)
      subst this
      rw [List.foldl_append, List.foldl_cons, List.foldl_nil, readMaterial_value _ _ _ _ _ _ hcomp,
        ih (fun m h => hm m (by simp [h]))]
      by_cases hc : ∃ r ∈ regions, c ∈ r.cells
      · rw [if_pos hc, if_pos ⟨by simp, hc⟩]
      · rw [if_neg hc, if_neg fun h => hc h.2, if_neg fun h => hc h.2]
  refine ⟨_, by unfold initMaterials; rw [if_pos ((checked_iff _ _ _).mpr hall)], ?_, ?_⟩
  · intro r hr m hm c hc
    rw [key mats hv c, if_pos ⟨List.ne_nil_of_mem hm.1, r, hr, hc⟩, hv m hm.1]
    rfl
  · intro c hc
    rw [key mats hv c, if_neg]
    rintro ⟨_, r, hr, h⟩
    exact hc r hr h

example : ∃ a, initMaterials [⟨['a'], 1, [0, 2]⟩, ⟨['b'], 2, [1]⟩] [⟨['b'], ['m']⟩, ⟨['a'], ['m']⟩]
    [⟨['m'], .value (1/2)⟩] = some a ∧ a 2 = 1/2 := by
  obtain ⟨a, h1, h2, _⟩ := C23_material_partial [⟨['a'], 1, [0, 2]⟩, ⟨['b'], 2, [1]⟩]
    [⟨['b'], ['m']⟩, ⟨['a'], ['m']⟩] [⟨['m'], .value (1/2)⟩] (1/2) (by simp) (by
      intro r hr
      refine ⟨⟨['m'], .value (1/2)⟩, by simp, ?_⟩
      simp at hr
      rcases hr with rfl | rfl <;> simp)
  exact ⟨a, h1, h2 ⟨['a'], 1, [0, 2]⟩ (by simp) ⟨['m'], .value (1/2)⟩
    ⟨by simp, ⟨['a'], ['m']⟩, by simp, rfl, rfl⟩ 2 (by simp)⟩

/-- C23 fails: whatever the assignments say, with several constant materials every cell of every
region gets the value of the *last* material in the list. -/
theorem C23_two_materials_violated (regions : List Region) (comp : List Assignment)
    (mats : List Material) (nm : Str) (v : ℝ)
    (hall : ∀ r ∈ regions, ∃ m, assigned comp (mats ++ [⟨nm, .value v⟩]) r m) :
    ∃ a, initMaterials regions comp (mats ++ [⟨nm, .value v⟩]) = some a ∧
      ∀ r ∈ regions, ∀ c ∈ r.cells, a c = v := by
  have hcomp : ∀ r ∈ regions, ∃ s ∈ comp, s.region = r.name := by
    intro r hr; obtain ⟨m, _, s, h1, h2, _⟩ := hall r hr; exact ⟨s, h1, h2⟩
  refine ⟨_, by unfold initMaterials; rw [if_pos ((checked_iff _ _ _).mpr hall)], ?_⟩
  intro r hr c hc
  rw [List.foldl_append, List.foldl_cons, List.foldl_nil, readMaterial_value _ _ _ _ _ _ hcomp,
    if_pos ⟨r, hr, hc⟩]

/-- A concrete case: region "a" is assigned material "s" with value 1, but gets value 2. -/
theorem C23_two_materials_witness_violated :
    ∃ a, initMaterials [⟨['a'], 1, [0]⟩, ⟨['b'], 2, [1]⟩] [⟨['a'], ['s']⟩, ⟨['b'], ['t']⟩]
      [⟨['s'], .value 1⟩, ⟨['t'], .value 2⟩] = some a ∧
      assigned [⟨['a'], ['s']⟩, ⟨['b'], ['t']⟩] [⟨['s'], .value 1⟩, ⟨['t'], .value 2⟩]
        ⟨['a'], 1, [0]⟩ ⟨['s'], .value 1⟩ ∧
      a 0 = 2 ∧ a 0 ≠ (MatProp.value 1).at 0 := by
  obtain ⟨a, h1, h2⟩ := C23_two_materials_violated [⟨['a'], 1, [0]⟩, ⟨['b'], 2, [1]⟩]
    [⟨['a'], ['s']⟩, ⟨['b'], ['t']⟩] [⟨['s'], .value 1⟩] ['t'] 2 (by
      intro r hr
      simp at hr
      rcases hr with rfl | rfl
      · exact ⟨⟨['s'], .value 1⟩, by simp, ⟨['a'], ['s']⟩, by simp, rfl, rfl⟩
      · exact ⟨⟨['t'], .value 2⟩, by simp, ⟨['b'], ['t']⟩, by simp, rfl, rfl⟩)
  have h0 : a 0 = 2 := h2 ⟨['a'], 1, [0]⟩ (by simp) 0 (by simp)
  refine ⟨a, h1, ⟨by simp, ⟨['a'], ['s']⟩, by simp, rfl, rfl⟩, h0, ?_⟩
  rw [h0]; norm_num [MatProp.at]

/-- C23 fails for files: with one material read from a file, the cell at position `k` of the
region's list gets the file's entry `k`, not the entry of that cell. Here the region consists of
cells 0 and 2, and cell 2 gets the data of cell 1. -/
theorem C23_file_violated :
    ∃ a, initMaterials [⟨['a'], 1, [0, 2]⟩] [⟨['a'], ['m']⟩]
      [⟨['m'], .file fun c => 10 * (c : ℝ)⟩] = some a ∧
      a 2 = 10 ∧ a 2 ≠ (MatProp.file fun c => 10 * (c : ℝ)).at 2 := by
  refine ⟨_, by unfold initMaterials; rw [if_pos (by simp [materialsChecked])], ?_⟩
  simp [readMaterial, writeMaterial, fill, MatProp.at, List.zipIdx]

/-- C23, files: if the cells of the region are numbered `0, 1, …` in order (a mesh with a single
region), a file's data do reach their cells. -/
theorem C23_file_one_region_partial (nmr nmm : Str) (rid : ℤ) (n : ℕ) (d : ℕ → ℝ) :
    ∃ a, initMaterials [⟨nmr, rid, List.range n⟩] [⟨nmr, nmm⟩] [⟨nmm, .file d⟩] = some a ∧
      ∀ c < n, a c = (MatProp.file d).at c := by
  refine ⟨_, by unfold initMaterials; rw [if_pos (by simp [materialsChecked])], ?_⟩
  intro c hc
  simp only [readMaterial, List.foldl_cons, List.foldl_nil, if_true, writeMaterial, MatProp.at]
  have hz : ∀ p ∈ (List.range n).zipIdx, p.2 = p.1 := by
    rintro ⟨x, i⟩ hp
    have := List.mem_zipIdx hp
    simp at this
    omega
  have hmem : (c, c) ∈ (List.range n).zipIdx := by
    rw [List.mem_zipIdx_iff_getElem?]
    simp [hc]
  have := fill_mem (fun _ => (0 : ℝ)) (List.range n).zipIdx Prod.fst (fun p => d p.2) (c, c) hmem (by
    intro p hp he
    simp only at he ⊢
    rw [hz p hp, he])
  simpa using this

/-! ### C24: initial flow -/

/-- Specification: what a flow condition prescribes for a component of a cell. File data take
precedence over expressions. -/
def FlowIc.at (f : FlowIc) (c i : ℕ) : Option ℝ :=
  match f.file, f.expr with
  | some d, _ => some (d c i)
  | none, some e => some (if i = 0 then e.1 else if i = 1 then e.2.1 else e.2.2)
  | none, none => none

/-- Footprint of a region in the block vector with `n` components per cell. -/
def footprint (cm : CellMap) (n : ℕ) (r : Region) (k : ℕ) : Prop :=
  ∃ c ∈ r.cells, cm.own c = true ∧ ∃ i < n, k = n * cm.l2o c + i

/-- All owned cells of `r` hold the data of `f`. -/
def holdsFlow (cm : CellMap) (f : FlowIc) (r : Region) (u : ℕ → ℝ) : Prop :=
  ∀ c ∈ r.cells, cm.own c = true → ∀ i < 3, f.at c i = some (u (3 * cm.l2o c + i))

/-- Distinct owned cells have distinct owned indices (`C16_numbering`). -/
def CellMap.Inj (cm : CellMap) : Prop :=
  ∀ c d, cm.own c = true → cm.own d = true → cm.l2o c = cm.l2o d → c = d

/-- A fold of writes, each to the block of one cell. -/
private theorem blockFold {α : Type} (n : ℕ) (o : α → ℕ) (g : α → (ℕ → ℝ) → (ℕ → ℝ)) (val : α → ℕ → ℝ)
    (hg : ∀ c u i, i < n → g c u (n * o c + i) = val c i)
    (hf : ∀ c u k, (∀ i < n, k ≠ n * o c + i) → g c u k = u k)
    (cells : List α) (u : ℕ → ℝ) :
    (∀ c ∈ cells, (∀ d ∈ cells, o d = o c → val d = val c) →
      ∀ i < n, cells.foldl (fun u c => g c u) u (n * o c + i) = val c i) ∧
    (∀ k, (∀ c ∈ cells, ∀ i < n, k ≠ n * o c + i) → cells.foldl (fun u c => g c u) u k = u k) := by
  induction cells using List.reverseRecOn with
  | nil => simp
  | append_singleton cs d ih =>
    simp only [List.foldl_append, List.foldl_cons, List.foldl_nil]
    refine ⟨?_, ?_⟩
    · intro c hc hv i hi
      by_cases hd : o d = o c
      · rw [← hd, hg d _ i hi, hv d (by simp) hd]
      · rcases List.mem_append.mp hc with h1 | h1
        · rw [hf d _ _ fun j hj he => hd (block_inj hi hj he).1.symm]
          exact ih.1 c h1 (fun e he => hv e (List.mem_append_left _ he)) i hi
        · rw [List.mem_singleton] at h1
          exact absurd (h1 ▸ rfl) hd
    · intro k hk
      rw [hf d _ k fun i hi => hk d (by simp) i hi]
      exact ih.2 k fun c hc => hk c (List.mem_append_left _ hc)

private theorem flow_file_write (cm : CellMap) (hcm : cm.Inj) (f : FlowIc) (d : ℕ → ℕ → ℝ)
    (hf : f.file = some d) :
    RegionWrite (flowFromFile cm d) (footprint cm 3) (holdsFlow cm f) := by
  have key := fun (r : Region) (u : ℕ → ℝ) => blockFold 3 cm.l2o
    (fun c u => fill u [0, 1, 2] (fun i => 3 * cm.l2o c + i) fun i => d c i) d
    (fun c u i hi => fill_mem u [0, 1, 2] (fun i => 3 * cm.l2o c + i) (fun i => d c i) i
      (by simp; omega) (by
        intro j _ he
        have : j = i := by omega
        rw [this]))
    (fun c u k hk => fill_other u [0, 1, 2] _ _ k (by
      intro i hi he
      simp at hi
      exact hk i (by omega) he.symm))
    (r.cells.filter fun c => cm.own c) u
  constructor
  · intro r u c hc ho i hi
    have hmem : c ∈ r.cells.filter fun c => cm.own c := List.mem_filter.mpr ⟨hc, ho⟩
    have := (key r u).1 c hmem (by
      intro e he h
      rw [hcm e c (by simpa using (List.mem_filter.mp he).2) ho h]) i hi
    unfold FlowIc.at flowFromFile
    rw [hf, this]
  · intro r u k hk
    refine (key r u).2 k ?_
    intro c hc i hi he
    exact hk ⟨c, (List.mem_filter.mp hc).1, by simpa using (List.mem_filter.mp hc).2, i, hi, he⟩

private theorem flow_expr_write (cm : CellMap) (f : FlowIc) (e : ℝ × ℝ × ℝ)
    (hf : f.file = none) (he : f.expr = some e) :
    RegionWrite (flowFromExpr cm e) (footprint cm 3) (holdsFlow cm f) := by
  have key := fun (r : Region) (u : ℕ → ℝ) => blockFold 3 (id : ℕ → ℕ)
    (fun o u => Function.update (Function.update (Function.update u (3 * o) e.1) (3 * o + 1) e.2.1)
      (3 * o + 2) e.2.2)
    (fun _ i => if i = 0 then e.1 else if i = 1 then e.2.1 else e.2.2)
    (fun o u i hi => by
      obtain rfl | rfl | rfl : i = 0 ∨ i = 1 ∨ i = 2 := by omega
      all_goals simp)
    (fun o u k hk => by
      have h0 := hk 0 (by omega)
      have h1 := hk 1 (by omega)
      have h2 := hk 2 (by omega)
      simp only [id, Nat.add_zero] at h0 h1 h2
      rw [Function.update_of_ne h2, Function.update_of_ne h1, Function.update_of_ne h0])
    (r.ownedIds cm) u
  constructor
  · intro r u c hc ho i hi
    have hmem : cm.l2o c ∈ r.ownedIds cm :=
      List.mem_map.mpr ⟨c, List.mem_filter.mpr ⟨hc, ho⟩, rfl⟩
    have := (key r u).1 (cm.l2o c) hmem (fun _ _ _ => rfl) i hi
    unfold FlowIc.at flowFromExpr
    rw [hf, he]
    simp only [id] at this
    rw [this]
  · intro r u k hk
    refine (key r u).2 k ?_
    intro o ho i hi hk'
    obtain ⟨c, hc, rfl⟩ := List.mem_map.mp ho
    exact hk ⟨c, (List.mem_filter.mp hc).1, by simpa using (List.mem_filter.mp hc).2, i, hi, hk'⟩

private theorem holdsFlow_stable (cm : CellMap) (f : FlowIc) :
    Stable (footprint cm 3) (holdsFlow cm f) := by
  intro r u u' hk hw c hc ho i hi
  rw [← hk _ ⟨c, hc, ho, i, hi, rfl⟩]
  exact hw c hc ho i hi

/-- A condition can be used by the regions that name it: it has data, and, if these come from a file,
at most one region uses it. -/
def FlowIc.usable (icName : Region → Option Str) (regions : List Region) (f : FlowIc) : Prop :=
  (∃ d, f.file = some d ∧ (regions.filter fun r => icName r = some f.name).length ≤ 1) ∨
  (f.file = none ∧ ∃ e, f.expr = some e) ∨
  (regions.filter fun r => icName r = some f.name) = []

private theorem initFlow_eq (cm : CellMap) (icName : Region → Option Str) (regions : List Region)
    (conds : List FlowIc) (u : ℕ → ℝ) :
    initFlow cm icName regions conds u = runAll (fun f u => regionLoop icName f.name (flowFromFile cm)
      (some (flowFromExpr cm (f.expr.getD (0, 0, 0)))) regions u f.file) conds u := by
  induction conds generalizing u with
  | nil => rfl
  | cons f fs ih =>
    unfold initFlow runAll
    split <;> simp_all

/-- The regions have no owned cell in common. -/
def regionsDisjoint (cm : CellMap) (regions : List Region) : Prop :=
  regions.Pairwise fun r s => ∀ c ∈ r.cells, cm.own c = true → c ∉ s.cells

/-- C24, the part that holds. If the regions are disjoint, each region has a condition, conditions
have different names, and a condition read from a file is used by at most one region, then
initialisation succeeds, every owned cell of every region holds all three components of its region's
condition, and nothing is written elsewhere. What is missing: several regions that use the same
condition from a file (`C24_shared_file_violated`). -/
theorem C24_initial_flow_partial (cm : CellMap) (hcm : cm.Inj) (icName : Region → Option Str)
    (regions : List Region) (conds : List FlowIc) (u : ℕ → ℝ)
    (hdis : regionsDisjoint cm regions)
    (hic : ∀ r ∈ regions, ∃ f ∈ conds, icName r = some f.name)
    (hnd : (conds.map FlowIc.name).Nodup)
    (hus : ∀ f ∈ conds, f.usable icName regions) :
    ∃ u', initFlow cm icName regions conds u = some u' ∧
      (∀ r ∈ regions, ∀ f ∈ conds, icName r = some f.name →
        ∀ c ∈ r.cells, cm.own c = true → ∀ i < 3, f.at c i = some (u' (3 * cm.l2o c + i))) ∧
      (∀ k, (∀ r ∈ regions, ∀ c ∈ r.cells, cm.own c = true → ∀ i < 3, k ≠ 3 * cm.l2o c + i) →
        u' k = u k) := by
  have hd : regions.Pairwise fun r s => ∀ k, footprint cm 3 r k → ¬ footprint cm 3 s k := by
    refine hdis.imp ?_
    rintro r s h k ⟨c, hc, ho, i, hi, rfl⟩ ⟨d, hd, ho', j, hj, he⟩
    have := hcm c d ho ho' (block_inj hi hj he).1
    subst this
    exact h c hc ho hd
  have hne : ∀ r ∈ regions, icName r ≠ none := by
    intro r hr; obtain ⟨f, _, h⟩ := hic r hr; rw [h]; simp
  rw [initFlow_eq]
  obtain ⟨u', e1, e2, e3⟩ := runAll_spec FlowIc.name icName regions _ (footprint cm 3)
    (holdsFlow cm) (holdsFlow_stable cm) hd conds u hnd (by
      intro f hf u
      refine regionLoop_spec icName f.name (flowFromFile cm)
        (some (flowFromExpr cm (f.expr.getD (0, 0, 0)))) (footprint cm 3) (holdsFlow cm f) (holdsFlow_stable cm f) regions f.file u hne hd ?_
      rcases hus f hf with ⟨d, hd, hl⟩ | ⟨hn, e, he⟩ | hnil
      · exact Or.inl ⟨d, hd, flow_file_write cm hcm f d hd, hl⟩
      · exact Or.inr (Or.inl ⟨hn, flowFromExpr cm e, by rw [he, Option.getD_some], flow_expr_write cm f e hn he⟩)
      · exact Or.inr (Or.inr hnil))
  refine ⟨u', e1, e2, ?_⟩
  intro k hk
  refine e3 k ?_
  rintro r hr _ ⟨c, hc, ho, i, hi, rfl⟩
  exact hk r hr c hc ho i hi rfl

/-- Three cells in two regions, the middle one a ghost; one region is filled from a file, the other
from expressions. -/
example : ∃ u', initFlow ⟨fun c => c != 1, fun c => if c = 2 then 1 else c⟩
    (fun r => some r.name) [⟨['a'], 1, [1, 2]⟩, ⟨['b'], 2, [0]⟩]
    [⟨['a'], some fun c i => 10 * c + i, none⟩, ⟨['b'], none, some (1, 2, 3)⟩] (fun _ => 0) = some u' ∧
    some 22 = some (u' (3 * 1 + 2)) ∧ some 2 = some (u' (3 * 0 + 1)) := by
  obtain ⟨u', h1, h2, _⟩ := C24_initial_flow_partial ⟨fun c => c != 1, fun c => if c = 2 then 1 else c⟩
    (by intro c d hc hd h; simp at hc hd h; split_ifs at h <;> omega)
    (fun r => some r.name) [⟨['a'], 1, [1, 2]⟩, ⟨['b'], 2, [0]⟩]
    [⟨['a'], some fun c i => 10 * c + i, none⟩, ⟨['b'], none, some (1, 2, 3)⟩] (fun _ => 0)
    (by simp [regionsDisjoint]) (by simp) (by simp)
    (by
      intro f hf
      simp at hf
      rcases hf with rfl | rfl
      · exact Or.inl ⟨_, rfl, by simp⟩
      · exact Or.inr (Or.inl ⟨rfl, _, rfl⟩))
  refine ⟨u', h1, ?_, ?_⟩
  · have := h2 ⟨['a'], 1, [1, 2]⟩ (by simp) ⟨['a'], some fun c i => 10 * c + i, none⟩ (by simp) rfl
      2 (by simp) (by simp) 2 (by omega)
    simp only [if_true, FlowIc.at] at this
    rw [← this]; norm_num
  · have := h2 ⟨['b'], 2, [0]⟩ (by simp) ⟨['b'], none, some (1, 2, 3)⟩ (by simp) rfl
      0 (by simp) (by simp) 1 (by omega)
    simpa [FlowIc.at] using this

/-- C24 fails silently: two regions use the same condition, given by a file. The vector is destroyed after
the first region, and for the second the expressions, which are not given, are evaluated: whatever the file
says, all of the second region is dry and at rest. -/
theorem C24_shared_file_violated (cm : CellMap) (icName : Region → Option Str) (r s : Region)
    (nm : Str) (d : ℕ → ℕ → ℝ) (u : ℕ → ℝ) (hr : icName r = some nm) (hs : icName s = some nm) :
    ∃ u', initFlow cm icName [r, s] [⟨nm, some d, none⟩] u = some u' ∧
      ∀ c ∈ s.cells, cm.own c = true → ∀ i < 3, u' (3 * cm.l2o c + i) = 0 := by
  refine ⟨flowFromExpr cm (0, 0, 0) s (flowFromFile cm d r u), by simp [initFlow, regionLoop, hr, hs], ?_⟩
  intro c hc ho i hi
  have h := (flow_expr_write cm ⟨nm, none, some (0, 0, 0)⟩ (0, 0, 0) rfl rfl).1 s (flowFromFile cm d r u) c hc ho i hi
  simpa [FlowIc.at] using h.symm

example : ∃ u', initFlow ⟨fun _ => true, id⟩ (fun _ => some ['i']) [⟨['a'], 1, [0]⟩, ⟨['b'], 2, [1]⟩]
    [⟨['i'], some (fun _ _ => 1), none⟩] (fun _ => 0) = some u' ∧ u' 3 = 0 := by
  obtain ⟨u', h, hz⟩ := C24_shared_file_violated ⟨fun _ => true, id⟩ (fun _ => some ['i']) ⟨['a'], 1, [0]⟩
    ⟨['b'], 2, [1]⟩ ['i'] (fun _ _ => 1) (fun _ => 0) rfl rfl
  exact ⟨u', h, hz 1 (by simp) rfl 0 (by omega)⟩

/-- C24 fails silently if the condition has both a file and expressions: the second region gets the
expressions instead of the file's data. -/
theorem C24_shared_file_and_expr_violated :
    ∃ u', initFlow ⟨fun _ => true, id⟩ (fun _ => some ['f']) [⟨['a'], 1, [0]⟩, ⟨['b'], 2, [1]⟩]
      [⟨['f'], some fun _ _ => 7, some (1, 2, 3)⟩] (fun _ => 0) = some u' ∧
      u' 0 = 7 ∧ u' 3 = 1 ∧
      (FlowIc.mk ['f'] (some fun _ _ => 7) (some (1, 2, 3))).at 1 0 ≠ some (u' 3) := by
  refine ⟨_, rfl, ?_⟩
  simp [flowFromFile, flowFromExpr, fill, Region.ownedIds, FlowIc.at]

/-- C24 (which condition): a region's condition is the one named by the first specification for that
region, and no other region's specification matters. -/
theorem C24_first_specification (specs : List (Str × Str)) (conds : List FlowIc) (r : Region)
    (nm : Str) (h : icFlowName specs conds r = some nm) :
    ∃ pre post, specs = pre ++ (r.name, nm) :: post ∧ (∀ s ∈ pre, s.1 ≠ r.name) ∧
      ∃ f ∈ conds, f.name = nm := by
  unfold icFlowName at h
  split at h
  · cases h
  · next s hs =>
    obtain ⟨h1, pre, post, h2, h3⟩ := List.find?_eq_some_iff_append.mp hs
    cases hc : conds.find? fun c => decide (c.name = s.2) with
    | none => rw [hc] at h; cases h
    | some f =>
      rw [hc] at h
      have h4 := List.find?_some hc
      simp only [decide_eq_true_eq] at h1 h4
      have h5 : f.name = nm := by simpa using h
      refine ⟨pre, post, ?_, ?_, f, List.mem_of_find?_eq_some hc, h5⟩
      · rw [h2, ← h1, ← h5, h4]
      · intro t ht; simpa using h3 t ht

example : icFlowName [(['a'], ['x']), (['b'], ['y']), (['b'], ['x'])]
    [⟨['x'], none, none⟩, ⟨['y'], none, none⟩] ⟨['b'], 1, []⟩ = some ['y'] := by
  decide

/-! ### C25: tracers -/

/-- Specification: names of the tracer components. -/
inductive TracerName
  | sediment (k : ℕ)
  | salinity
  | temperature

/-- Specification: which tracers there are. -/
def TracerName.active (t : TracerCfg) : TracerName → Prop
  | .sediment k => k < t.numClasses
  | .salinity => t.salinityOn = true
  | .temperature => t.heatOn = true

/-- Specification: the component of each tracer: sediment classes, then salinity, then
temperature. -/
def TracerName.slot (t : TracerCfg) : TracerName → ℕ
  | .sediment k => k
  | .salinity => t.numClasses
  | .temperature => t.numClasses + (if t.salinityOn then 1 else 0)

/-- C25 (slots): the active tracers are in bijection with the components of the tracer vector. -/
theorem C25_slots (t : TracerCfg) :
    (∀ a : TracerName, a.active t → a.slot t < t.ndof) ∧
    (∀ a b : TracerName, a.active t → b.active t → a.slot t = b.slot t → a = b) ∧
    (∀ i < t.ndof, ∃ a : TracerName, a.active t ∧ a.slot t = i) := by
  refine ⟨?_, ?_, ?_⟩
  · rintro (k | _ | _) h <;> simp only [TracerName.active] at h <;>
      simp only [TracerName.slot, TracerCfg.ndof] <;> split_ifs <;> simp_all <;> omega
  · rintro (k | _ | _) (l | _ | _) ha hb h <;> simp only [TracerName.active] at ha hb <;>
      simp only [TracerName.slot] at h <;> simp_all <;> omega
  · intro i hi
    simp only [TracerCfg.ndof] at hi
    by_cases h1 : i < t.numClasses
    · exact ⟨.sediment i, h1, rfl⟩
    · by_cases h2 : t.salinityOn = true
      · by_cases h3 : i = t.numClasses
        · exact ⟨.salinity, h2, h3.symm⟩
        · refine ⟨.temperature, ?_, ?_⟩
          · by_contra h4; simp only [TracerName.active] at h4; simp [h2, h4] at hi; omega
          · simp only [TracerName.slot, h2, if_true]
            rw [if_pos h2] at hi
            split_ifs at hi <;> omega
      · refine ⟨.temperature, ?_, ?_⟩
        · by_contra h4; simp only [TracerName.active] at h4; simp [h2, h4] at hi; omega
        · simp only [TracerName.slot, h2, if_false]
          rw [if_neg h2] at hi
          split_ifs at hi <;> simp <;> omega

/-- Specification: what a condition prescribes for a cell. -/
def CompIc.at (c : CompIc) (cell : ℕ) : Option ℝ :=
  match c.file with
  | some d => some (d cell)
  | none => c.expr

/-- Specification: what a sediment condition prescribes for size class `j` in a cell. -/
def SedIc.at (c : SedIc) (j cell : ℕ) : Option ℝ :=
  match c.file j with
  | some d => some (d cell)
  | none => c.expr j

/-- All owned cells of `r` hold the data of `c` in component `slot`. -/
def holdsComp (cm : CellMap) (n slot : ℕ) (c : CompIc) (r : Region) (u : ℕ → ℝ) : Prop :=
  ∀ cell ∈ r.cells, cm.own cell = true → c.at cell = some (u (n * cm.l2o cell + slot))

/-- Positions of component `slot` of the owned cells of a region. -/
def slotprint (cm : CellMap) (n slot : ℕ) (r : Region) (k : ℕ) : Prop :=
  ∃ c ∈ r.cells, cm.own c = true ∧ k = n * cm.l2o c + slot

/-- Like `FlowIc.usable`, for one component; `exprOk` says whether expressions may be used. -/
def CompIc.usable (icName : Region → Option Str) (regions : List Region) (exprOk : Prop)
    (c : CompIc) : Prop :=
  (∃ d, c.file = some d ∧ (regions.filter fun r => icName r = some c.name).length ≤ 1) ∨
  (c.file = none ∧ (∃ e, c.expr = some e) ∧ exprOk) ∨
  (regions.filter fun r => icName r = some c.name) = []

private theorem holdsComp_stable (cm : CellMap) (n slot : ℕ) (c : CompIc) :
    Stable (slotprint cm n slot) (holdsComp cm n slot c) := by
  intro r u u' hk hw cell hc ho
  rw [← hk _ ⟨cell, hc, ho, rfl⟩]
  exact hw cell hc ho

private theorem comp_file_write (cm : CellMap) (hcm : cm.Inj) (n slot : ℕ) (hs : slot < n) (c : CompIc)
    (d : ℕ → ℝ) (hf : c.file = some d) :
    RegionWrite (compFromFile cm n slot d) (slotprint cm n slot) (holdsComp cm n slot c) := by
  constructor
  · intro r u cell hc ho
    unfold CompIc.at compFromFile
    rw [hf]
    have := fill_mem u (r.cells.filter fun c => cm.own c) (fun c => n * cm.l2o c + slot) d cell
      (List.mem_filter.mpr ⟨hc, ho⟩) (by
        intro e he h
        rw [hcm e cell (by simpa using (List.mem_filter.mp he).2) ho (block_inj hs hs h).1])
    simp only [this]
  · intro r u k hk
    refine fill_other u _ _ _ k ?_
    intro e he h
    exact hk ⟨e, (List.mem_filter.mp he).1, by simpa using (List.mem_filter.mp he).2, h.symm⟩

private theorem comp_expr_write (cm : CellMap) (n slot : ℕ) (c : CompIc)
    (v : ℝ) (hf : c.file = none) (he : c.expr = some v) :
    RegionWrite (compFromExpr cm n slot v) (slotprint cm n slot) (holdsComp cm n slot c) := by
  constructor
  · intro r u cell hc ho
    unfold CompIc.at compFromExpr
    rw [hf, he]
    have := fill_mem u (r.ownedIds cm) (fun o => n * o + slot) (fun _ => v) (cm.l2o cell)
      (List.mem_map.mpr ⟨cell, List.mem_filter.mpr ⟨hc, ho⟩, rfl⟩) (fun _ _ _ => rfl)
    simp only [this]
  · intro r u k hk
    refine fill_other u _ _ _ k ?_
    intro o ho h
    obtain ⟨e, he, rfl⟩ := List.mem_map.mp ho
    exact hk ⟨e, (List.mem_filter.mp he).1, by simpa using (List.mem_filter.mp he).2, h.symm⟩

private theorem slot_disjoint (cm : CellMap) (hcm : cm.Inj) (n : ℕ) (regions : List Region)
    (hdis : regionsDisjoint cm regions) (slot : ℕ) (hs : slot < n) :
    regions.Pairwise fun r s => ∀ k, slotprint cm n slot r k → ¬ slotprint cm n slot s k := by
  refine hdis.imp ?_
  rintro r s h k ⟨c, hc, ho, rfl⟩ ⟨d, hd, ho', he⟩
  have := hcm c d ho ho' (block_inj hs hs he).1
  subst this
  exact h c hc ho hd

private theorem initComp_spec (cm : CellMap) (hcm : cm.Inj) (icName : Region → Option Str)
    (regions : List Region) (hdis : regionsDisjoint cm regions)
    (hic : ∀ r ∈ regions, icName r ≠ none)
    (n slot slotExpr : ℕ) (hs : slot < n) (c : CompIc)
    (hus : c.usable icName regions (slotExpr = slot)) (u : ℕ → ℝ) :
    ∃ u', initComp cm icName regions n slot slotExpr c u = some u' ∧
      (∀ r ∈ regions, icName r = some c.name → holdsComp cm n slot c r u') ∧
      (∀ k, (∀ r ∈ regions, icName r = some c.name → ¬ slotprint cm n slot r k) → u' k = u k) := by
  unfold initComp
  refine regionLoop_spec icName c.name (compFromFile cm n slot)
    (some (compFromExpr cm n slotExpr (c.expr.getD 0))) (slotprint cm n slot) (holdsComp cm n slot c)
    (holdsComp_stable cm n slot c) regions c.file u hic (slot_disjoint cm hcm n regions hdis slot hs) ?_
  rcases hus with ⟨d, hd, hl⟩ | ⟨hn, ⟨e, he⟩, rfl⟩ | hnil
  · exact Or.inl ⟨d, hd, comp_file_write cm hcm n slot hs c d hd, hl⟩
  · exact Or.inr (Or.inl ⟨hn, compFromExpr cm n slotExpr e, by rw [he, Option.getD_some],
      comp_expr_write cm n slotExpr c e hn he⟩)
  · exact Or.inr (Or.inr hnil)

private theorem initComps_eq (cm : CellMap) (icName : Region → Option Str) (regions : List Region)
    (n sf se : ℕ) (cs : List CompIc) (u : ℕ → ℝ) :
    initComps cm icName regions n sf se cs u = runAll (initComp cm icName regions n sf se) cs u := by
  induction cs generalizing u with
  | nil => rfl
  | cons f fs ih =>
    unfold initComps runAll
    split <;> simp_all

private theorem initSediment_eq (cm : CellMap) (t : TracerCfg) (regions : List Region)
    (cs : List SedIc) (u : ℕ → ℝ) :
    initSediment cm t regions cs u
      = runAll (fun c u => initSedClasses cm t regions c t.numClasses 0 u) cs u := by
  induction cs generalizing u with
  | nil => rfl
  | cons f fs ih =>
    unfold initSediment runAll
    split <;> simp_all

/-- Positions of components `< m`. -/
private def rangeprint (cm : CellMap) (n m : ℕ) (r : Region) (k : ℕ) : Prop :=
  ∃ j < m, slotprint cm n j r k

private theorem initSedClasses_spec (cm : CellMap) (hcm : cm.Inj) (t : TracerCfg)
    (regions : List Region) (hdis : regionsDisjoint cm regions)
    (hic : ∀ r ∈ regions, t.icSediment r ≠ none) (c : SedIc) (n k : ℕ)
    (hus : ∀ j < k + n, (c.cls j).usable t.icSediment regions True) (hn : k + n ≤ t.ndof) (u : ℕ → ℝ) :
    ∃ u', initSedClasses cm t regions c n k u = some u' ∧
      (∀ r ∈ regions, t.icSediment r = some c.name → ∀ j, k ≤ j → j < k + n →
        holdsComp cm t.ndof j (c.cls j) r u') ∧
      (∀ i, (∀ r ∈ regions, t.icSediment r = some c.name → ∀ j, k ≤ j → j < k + n →
        ¬ slotprint cm t.ndof j r i) → u' i = u i) := by
  induction n generalizing k u with
  | zero => exact ⟨u, rfl, by intro r _ _ j h1 h2; omega, by simp⟩
  | succ n ih =>
    have hu := hus k (by omega)
    obtain ⟨u1, e1, e2, e3⟩ := initComp_spec cm hcm t.icSediment regions hdis hic t.ndof k k (by omega)
      (c.cls k) (by
        rcases hu with h | ⟨h1, h2, _⟩ | h
        · exact Or.inl h
        · exact Or.inr (Or.inl ⟨h1, h2, rfl⟩)
        · exact Or.inr (Or.inr h)) u
    obtain ⟨u2, g1, g2, g3⟩ := ih (k + 1) (fun j hj => hus j (by omega)) (by omega) u1
    refine ⟨u2, ?_, ?_, ?_⟩
    · unfold initSedClasses; rw [e1]; exact g1
    · intro r hr hn' j h1 h2
      by_cases hj : j = k
      · subst hj
        refine holdsComp_stable cm t.ndof j (c.cls j) r u1 u2 ?_ (e2 r hr hn')
        rintro i ⟨cc, hc, ho, rfl⟩
        refine (g3 _ ?_).symm
        rintro s hs _ l hl1 hl2 ⟨d, hd, ho', he⟩
        have := (block_inj (n := t.ndof) (by omega) (by omega) he).2
        omega
      · exact g2 r hr hn' j (by omega) (by omega)
    · intro i hi
      rw [g3 i fun r hr hn' j h1 h2 => hi r hr hn' j (by omega) (by omega)]
      exact e3 i fun r hr hn' => hi r hr hn' k le_rfl (by omega)

/-- Requirements on the conditions for one tracer: their names are different and each region has
one. -/
def wellPosed {C : Type} (name : C → Str) (icName : Region → Option Str) (regions : List Region)
    (conds : List C) : Prop :=
  (conds.map name).Nodup ∧ ∀ r ∈ regions, ∃ c ∈ conds, icName r = some (name c)

private theorem wellPosed_ne {C : Type} (name : C → Str) (icName : Region → Option Str)
    (regions : List Region) (conds : List C) (h : wellPosed name icName regions conds) :
    ∀ r ∈ regions, icName r ≠ none := by
  intro r hr; obtain ⟨f, _, h⟩ := h.2 r hr; rw [h]; simp

private theorem initComps_spec (cm : CellMap) (hcm : cm.Inj) (icName : Region → Option Str)
    (regions : List Region) (hdis : regionsDisjoint cm regions)
    (n slot slotExpr : ℕ) (hs : slot < n) (cs : List CompIc)
    (hwp : wellPosed CompIc.name icName regions cs)
    (hus : ∀ c ∈ cs, c.usable icName regions (slotExpr = slot)) (u : ℕ → ℝ) :
    ∃ u', initComps cm icName regions n slot slotExpr cs u = some u' ∧
      (∀ r ∈ regions, ∀ c ∈ cs, icName r = some c.name → holdsComp cm n slot c r u') ∧
      (∀ k, (∀ r ∈ regions, ¬ slotprint cm n slot r k) → u' k = u k) := by
  rw [initComps_eq]
  obtain ⟨u', e1, e2, e3⟩ := runAll_spec CompIc.name icName regions
    (initComp cm icName regions n slot slotExpr) (slotprint cm n slot) (holdsComp cm n slot)
    (holdsComp_stable cm n slot) (slot_disjoint cm hcm n regions hdis slot hs) cs u hwp.1
    (fun c hc u => initComp_spec cm hcm icName regions hdis (wellPosed_ne _ _ _ _ hwp) n slot slotExpr hs
      c (hus c hc) u)
  exact ⟨u', e1, e2, fun k hk => e3 k fun r hr _ => hk r hr⟩

private theorem initSediment_spec (cm : CellMap) (hcm : cm.Inj) (t : TracerCfg)
    (regions : List Region) (hdis : regionsDisjoint cm regions)
    (hwp : t.numClasses ≠ 0 → wellPosed SedIc.name t.icSediment regions t.sediment)
    (hus : ∀ c ∈ t.sediment, ∀ j < t.numClasses, (c.cls j).usable t.icSediment regions True)
    (u : ℕ → ℝ) :
    ∃ u', initSediment cm t regions t.sediment u = some u' ∧
      (∀ r ∈ regions, ∀ c ∈ t.sediment, t.icSediment r = some c.name → ∀ j < t.numClasses,
        holdsComp cm t.ndof j (c.cls j) r u') := by
  rw [initSediment_eq]
  by_cases h0 : t.numClasses = 0
  · refine ⟨u, ?_, ?_⟩
    · generalize t.sediment = cs
      induction cs with
      | nil => rfl
      | cons c cs ih => unfold runAll; rw [h0] at ih ⊢; exact ih
    · intro r _ c _ _ j hj; omega
  have hwp := hwp h0
  have hnd : t.numClasses ≤ t.ndof := by unfold TracerCfg.ndof; omega
  obtain ⟨u', e1, e2, _⟩ := runAll_spec SedIc.name t.icSediment regions
    (fun c u => initSedClasses cm t regions c t.numClasses 0 u)
    (rangeprint cm t.ndof t.numClasses)
    (fun c r u => ∀ j < t.numClasses, holdsComp cm t.ndof j (c.cls j) r u)
    (by
      intro c r u u' hk hw j hj
      exact holdsComp_stable cm t.ndof j (c.cls j) r u u' (fun k h => hk k ⟨j, hj, h⟩) (hw j hj))
    (by
      refine hdis.imp ?_
      rintro r s h k ⟨i, hi, c, hc, ho, rfl⟩ ⟨j, hj, d, hd, ho', he⟩
      have := hcm c d ho ho' (block_inj (by omega) (by omega) he).1
      subst this
      exact h c hc ho hd)
    t.sediment u hwp.1
    (by
      intro c hc u
      obtain ⟨u', g1, g2, g3⟩ := initSedClasses_spec cm hcm t regions hdis
        (wellPosed_ne _ _ _ _ hwp) c t.numClasses 0 (fun j hj => hus c hc j (by omega))
        (by omega) u
      refine ⟨u', g1, fun r hr hn j hj => g2 r hr hn j (Nat.zero_le _) (by omega), ?_⟩
      intro k hk
      exact g3 k fun r hr hn j _ hj h => hk r hr hn ⟨j, by omega, h⟩)
  exact ⟨u', e1, fun r hr c hc hn => e2 r hr c hc hn⟩

/-- C25 (initial data), the part that holds. Regions are disjoint; for each active tracer the
conditions have different names and each region has one; conditions from files are used by at most
one region; an inactive tracer has no conditions; and salinity (temperature) is given by files,
unless component 0 is the right one. Then every tracer component of every owned cell of every region
holds that tracer's initial data: no tracer's data overwrite another's. What is missing: salinity and
temperature given by expressions (`C25_salinity_expr_violated`, `C25_temperature_expr_violated`), and
conditions for inactive tracers (`C25_inactive_violated`). -/
theorem C25_initial_tracers_partial (cm : CellMap) (hcm : cm.Inj) (t : TracerCfg)
    (regions : List Region) (hdis : regionsDisjoint cm regions)
    (hsed : t.numClasses ≠ 0 → wellPosed SedIc.name t.icSediment regions t.sediment)
    (hsedu : ∀ c ∈ t.sediment, ∀ j < t.numClasses, (c.cls j).usable t.icSediment regions True)
    (hsal : if t.salinityOn then wellPosed CompIc.name t.icSalinity regions t.salinity
      else t.salinity = [])
    (hsalu : ∀ c ∈ t.salinity, c.usable t.icSalinity regions (TracerName.salinity.slot t = 0))
    (htem : if t.heatOn then wellPosed CompIc.name t.icTemperature regions t.temperature
      else t.temperature = [])
    (htemu : ∀ c ∈ t.temperature,
      c.usable t.icTemperature regions (TracerName.temperature.slot t = 0)) :
    ∃ u, initTracers cm t regions = some u ∧
      ∀ r ∈ regions, ∀ cell ∈ r.cells, cm.own cell = true →
        (∀ c ∈ t.sediment, t.icSediment r = some c.name → ∀ j < t.numClasses,
          SedIc.at c j cell = some (u (t.ndof * cm.l2o cell + (TracerName.sediment j).slot t))) ∧
        (∀ c ∈ t.salinity, t.icSalinity r = some c.name →
          c.at cell = some (u (t.ndof * cm.l2o cell + TracerName.salinity.slot t))) ∧
        (∀ c ∈ t.temperature, t.icTemperature r = some c.name →
          c.at cell = some (u (t.ndof * cm.l2o cell + TracerName.temperature.slot t))) := by
  unfold initTracers
  by_cases h0 : t.ndof = 0
  · rw [if_pos h0]
    have hnc : t.numClasses = 0 := by unfold TracerCfg.ndof at h0; omega
    have hs : t.salinityOn = false := by
      by_contra h; unfold TracerCfg.ndof at h0; simp [h] at h0
    have hh : t.heatOn = false := by
      by_contra h; unfold TracerCfg.ndof at h0; simp [h] at h0
    rw [hs] at hsal
    rw [hh] at htem
    simp only [Bool.false_eq_true, if_false] at hsal htem
    refine ⟨_, rfl, ?_⟩
    intro r _ cell _ _
    rw [hsal, htem]
    exact ⟨fun c _ _ j hj => by omega, by simp, by simp⟩
  rw [if_neg h0]
  obtain ⟨u1, e1, e2⟩ := initSediment_spec cm hcm t regions hdis hsed hsedu fun _ => 0
  rw [e1]
  simp only
  -- salinity
  have s2 : ∃ u2, initSalinity cm t regions u1 = some u2 ∧
      (∀ r ∈ regions, ∀ c ∈ t.salinity, t.icSalinity r = some c.name →
        holdsComp cm t.ndof t.numClasses c r u2) ∧
      (∀ o j, j < t.numClasses → u2 (t.ndof * o + j) = u1 (t.ndof * o + j)) := by
    unfold initSalinity
    by_cases hs : t.salinityOn = true
    · rw [if_pos hs] at hsal
      have hlt : t.numClasses < t.ndof := by unfold TracerCfg.ndof; rw [if_pos hs]; omega
      obtain ⟨u2, g1, g2, g3⟩ := initComps_spec cm hcm t.icSalinity regions hdis t.ndof t.numClasses 0
        hlt t.salinity hsal (fun c hc => by
          rcases hsalu c hc with h | ⟨h1, h2, h3⟩ | h
          · exact Or.inl h
          · exact Or.inr (Or.inl ⟨h1, h2, by simp only [TracerName.slot] at h3; exact h3.symm⟩)
          · exact Or.inr (Or.inr h)) u1
      refine ⟨u2, g1, g2, ?_⟩
      intro o j hj
      refine g3 _ ?_
      rintro r hr ⟨c, _, _, he⟩
      have := (block_inj (n := t.ndof) (by omega) (by omega) he).2
      omega
    · rw [if_neg hs] at hsal
      rw [hsal]
      exact ⟨u1, rfl, by simp, fun _ _ _ => rfl⟩
  obtain ⟨u2, f1, f2, f3⟩ := s2
  rw [f1]
  simp only
  have s3 : ∃ u3, initTemperature cm t regions u2 = some u3 ∧
      (∀ r ∈ regions, ∀ c ∈ t.temperature, t.icTemperature r = some c.name →
        holdsComp cm t.ndof (TracerName.temperature.slot t) c r u3) ∧
      (∀ o j, j < TracerName.temperature.slot t → u3 (t.ndof * o + j) = u2 (t.ndof * o + j)) := by
    unfold initTemperature
    by_cases hs : t.heatOn = true
    · rw [if_pos hs] at htem
      have hlt : TracerName.temperature.slot t < t.ndof := by
        unfold TracerCfg.ndof TracerName.slot; rw [if_pos hs]; simp
      obtain ⟨u3, g1, g2, g3⟩ := initComps_spec cm hcm t.icTemperature regions hdis t.ndof
        (TracerName.temperature.slot t) 0 hlt t.temperature htem (fun c hc => by
          rcases htemu c hc with h | ⟨h1, h2, h3⟩ | h
          · exact Or.inl h
          · exact Or.inr (Or.inl ⟨h1, h2, h3.symm⟩)
          · exact Or.inr (Or.inr h)) u2
      refine ⟨u3, g1, g2, ?_⟩
      intro o j hj
      refine g3 _ ?_
      rintro r hr ⟨c, _, _, he⟩
      have := (block_inj (n := t.ndof) (by omega) (by omega) he).2
      omega
    · rw [if_neg hs] at htem
      rw [htem]
      exact ⟨u2, rfl, by simp, fun _ _ _ => rfl⟩
  obtain ⟨u3, g1, g2, g3⟩ := s3
  refine ⟨u3, g1, ?_⟩
  intro r hr cell hc ho
  have hle : t.numClasses ≤ TracerName.temperature.slot t := by unfold TracerName.slot; simp
  refine ⟨?_, ?_, ?_⟩
  · intro c hcs hn j hj
    simp only [TracerName.slot]
    rw [g3 _ j (by omega), f3 _ j hj]
    exact e2 r hr c hcs hn j hj cell hc ho
  · intro c hcs hn
    simp only [TracerName.slot]
    have hon : t.salinityOn = true := by
      by_contra h
      rw [if_neg h] at hsal
      rw [hsal] at hcs
      simp at hcs
    have : t.numClasses < TracerName.temperature.slot t := by
      unfold TracerName.slot; simp [hon]
    rw [g3 _ _ this]
    exact f2 r hr c hcs hn cell hc ho
  · intro c hcs hn
    exact g2 r hr c hcs hn cell hc ho

/-- Two sediment classes (an expression each), salinity and temperature (files), two cells. -/
example : ∃ u, initTracers ⟨fun _ => true, id⟩
    ⟨2, true, true, [⟨['s'], fun _ => none, fun j => some (5 + j)⟩],
      [⟨['c'], some fun c => c + 1, none⟩],
      [⟨['h'], some fun c => c + 20, none⟩], fun _ => some ['s'], fun _ => some ['c'],
      fun _ => some ['h']⟩ [⟨['a'], 1, [0, 1]⟩] = some u ∧
    u (4 * 1 + 0) = 5 ∧ u (4 * 1 + 1) = 6 := by
  obtain ⟨u, h1, h2⟩ := C25_initial_tracers_partial ⟨fun _ => true, id⟩ (fun _ _ _ _ h => h)
    ⟨2, true, true, [⟨['s'], fun _ => none, fun j => some (5 + j)⟩],
      [⟨['c'], some fun c => c + 1, none⟩],
      [⟨['h'], some fun c => c + 20, none⟩], fun _ => some ['s'], fun _ => some ['c'],
      fun _ => some ['h']⟩ [⟨['a'], 1, [0, 1]⟩]
    (by simp [regionsDisjoint]) (by simp [wellPosed])
    (by intro c hc j _; simp at hc; subst hc; exact Or.inr (Or.inl ⟨rfl, ⟨_, rfl⟩, trivial⟩))
    (by simp [wellPosed])
    (by intro c hc; simp at hc; subst hc; exact Or.inl ⟨_, rfl, by simp⟩)
    (by simp [wellPosed])
    (by intro c hc; simp at hc; subst hc; exact Or.inl ⟨_, rfl, by simp⟩)
  refine ⟨u, h1, ?_⟩
  have h := (h2 ⟨['a'], 1, [0, 1]⟩ (by simp) 1 (by simp) rfl).1
    ⟨['s'], fun _ => none, fun j => some (5 + j)⟩ (by simp) rfl
  have a := h 0 (by simp)
  have b := h 1 (by simp)
  simp only [SedIc.at, TracerName.slot, TracerCfg.ndof, Option.some.injEq] at a b
  exact ⟨by simpa using a.symm, by
    have := b.symm
    norm_num at this ⊢
    exact this⟩

/-- C25 fails: salinity given by an expression overwrites the first sediment class (and is itself
left at zero). -/
theorem C25_salinity_expr_violated (v w : ℝ) :
    ∃ u, initTracers ⟨fun _ => true, id⟩
      ⟨1, true, false, [⟨['s'], fun _ => none, fun _ => some v⟩], [⟨['c'], none, some w⟩], [],
        fun _ => some ['s'], fun _ => some ['c'], fun _ => none⟩ [⟨['a'], 1, [0]⟩] = some u ∧
      u 0 = w ∧ u 1 = 0 := by
  refine ⟨_, rfl, ?_⟩
  simp [compFromExpr, fill, Region.ownedIds, TracerCfg.ndof]

/-- C25 fails likewise for temperature: it overwrites salinity if there is no sediment. -/
theorem C25_temperature_expr_violated (v w : ℝ) :
    ∃ u, initTracers ⟨fun _ => true, id⟩
      ⟨0, true, true, [], [⟨['c'], none, some v⟩], [⟨['h'], none, some w⟩],
        fun _ => none, fun _ => some ['c'], fun _ => some ['h']⟩ [⟨['a'], 1, [0]⟩] = some u ∧
      u 0 = w ∧ u 1 = 0 := by
  refine ⟨_, rfl, ?_⟩
  simp [compFromExpr, fill, Region.ownedIds, TracerCfg.ndof]

/-- C25 fails: with sediment on and salinity off, a salinity condition in the input leads to a null
pointer being followed (regions have no salinity condition then); without that condition all is
well. -/
theorem C25_inactive_violated (v : ℝ) (c : CompIc) :
    (∃ u, initTracers ⟨fun _ => true, id⟩
      ⟨1, false, false, [⟨['s'], fun _ => none, fun _ => some v⟩], [], [],
        fun _ => some ['s'], fun _ => none, fun _ => none⟩ [⟨['a'], 1, [0]⟩] = some u ∧ u 0 = v) ∧
    initTracers ⟨fun _ => true, id⟩
      ⟨1, false, false, [⟨['s'], fun _ => none, fun _ => some v⟩], [c], [],
        fun _ => some ['s'], fun _ => none, fun _ => none⟩ [⟨['a'], 1, [0]⟩] = none := by
  refine ⟨⟨_, rfl, ?_⟩, rfl⟩
  simp [compFromExpr, fill, Region.ownedIds, TracerCfg.ndof, SedIc.cls]

/-- C25 (solution vector): copying the tracer components behind the flow components puts component
`i` of cell `c` at position `3 + i` of the cell's block, and leaves the flow components alone. -/
theorem C25_scatter (n off total numCells : ℕ) (hoff : off + n ≤ total) (src dst : ℕ → ℝ) :
    (∀ c < numCells, ∀ i < n,
      scatterComps n n off total numCells src dst (total * c + (off + i)) = src (n * c + i)) ∧
    (∀ c, ∀ j < total, (j < off ∨ off + n ≤ j) →
      scatterComps n n off total numCells src dst (total * c + j) = dst (total * c + j)) := by
  unfold scatterComps
  have key : ∀ m ≤ n,
      (∀ c < numCells, ∀ i < m,
        (List.range m).foldl (fun u i => fill u (List.range numCells)
          (fun c => total * c + (off + i)) fun c => src (n * c + i)) dst (total * c + (off + i))
          = src (n * c + i)) ∧
      (∀ c, ∀ j < total, (j < off ∨ off + m ≤ j) →
        (List.range m).foldl (fun u i => fill u (List.range numCells)
          (fun c => total * c + (off + i)) fun c => src (n * c + i)) dst (total * c + j)
          = dst (total * c + j)) := by
    intro m
    induction m with
    | zero => intro _; simp
    | succ m ih =>
      intro hm
      obtain ⟨i1, i2⟩ := ih (by omega)
      simp only [List.range_succ, List.foldl_append, List.foldl_cons, List.foldl_nil]
      refine ⟨?_, ?_⟩
      · intro c hc i hi
        by_cases him : i = m
        · subst him
          exact fill_mem _ (List.range numCells) (fun c => total * c + (off + i))
            (fun c => src (n * c + i)) c (List.mem_range.mpr hc) (by
              intro d _ he
              rw [(block_inj (n := total) (by omega) (by omega) he).1])
        · rw [fill_other]
          · exact i1 c hc i (by omega)
          · intro d _ he
            have := (block_inj (n := total) (by omega) (by omega) he).2
            omega
      · intro c j hj hjo
        rw [fill_other]
        · exact i2 c j hj (by omega)
        · intro d _ he
          have := (block_inj (n := total) (by omega) hj he).2
          omega
  exact key n le_rfl

example : scatterComps 2 2 3 5 4 (fun k => k) (fun _ => 9) (5 * 3 + (3 + 1)) = ((2 * 3 + 1 : ℕ) : ℝ) :=
  (C25_scatter 2 3 5 4 (by omega) (fun k => k) (fun _ => 9)).1 3 (by omega) 1 (by omega)

end RDy
