import Verif.Model.Members
import Verif.Props.Ensemble
import Mathlib.Tactic

/-!
C127: what an ensemble member computes with. Specification: each material and condition of the member is one of the entries of the base configuration or of the member, with parsers for its own
texts; values come from a file or a text that the user gave.
-/

namespace RDy

/-! ### Specification -/

/-- Values come from a file or a non-empty text. -/
def Origin.Given : Origin → Prop
  | .file n => n ≠ []
  | .text t => t ≠ []

/-- An entry of the base or of the member under the name. -/
def FromEither {α : Type} (base ovs : List (Entry α)) (e : Entry α) : Prop := e ∈ base ∨ e ∈ ovs

/-- What a configuration must give: some material; for each material either a value or a file, the file with a format; for each flow condition that is not reflecting or an outflow, a file, a
rate, or a water height with both momenta; for each sediment condition and class an expression or a file; and for each salinity condition an expression. -/
structure CompleteSections (n : ℕ) (s : CfgSections) : Prop where
  some_material : s.materials ≠ []
  material : ∀ e ∈ s.materials, (e.value.expr ≠ [] ∧ e.value.file = []) ∨ (e.value.expr = [] ∧ e.value.file ≠ [] ∧ e.value.hasFormat = true)
  flow : ∀ e ∈ s.flow, e.value.type = .reflecting ∨ e.value.type = .criticalOutflow ∨ e.value.file ≠ [] ∨ e.value.rate ≠ [] ∨
    (e.value.height ≠ [] ∧ e.value.xMom ≠ [] ∧ e.value.yMom ≠ [])
  sediment : ∀ e ∈ s.sediment, ∀ j < n, (e.value.classes j).expr ≠ [] ∨ (e.value.classes j).file ≠ []
  salinity : ∀ e ∈ s.salinity, e.value.expr ≠ []

/-! ### Checks -/

theorem checkMat_iff (m : MatEntry) : checkMat m = true ↔ (m.expr ≠ [] ∧ m.file = []) ∨ (m.expr = [] ∧ m.file ≠ [] ∧ m.hasFormat = true) := by
  obtain ⟨x, f, b, v⟩ := m
  unfold checkMat
  cases x <;> cases f <;> simp

theorem checkFlow_iff (f : FlowEntry) : checkFlow f = true ↔ f.type = .reflecting ∨ f.type = .criticalOutflow ∨ f.file ≠ [] ∨ f.rate ≠ [] ∨
    (f.height ≠ [] ∧ f.xMom ≠ [] ∧ f.yMom ≠ []) := by
  unfold checkFlow
  simp only [Bool.and_eq_true, Bool.or_eq_true, bne_iff_ne, beq_iff_eq]
  tauto

theorem checkSed_iff (n : ℕ) (s : SedEntry) : checkSed n s = true ↔ ∀ j < n, (s.classes j).expr ≠ [] ∨ (s.classes j).file ≠ [] := by
  unfold checkSed
  simp only [List.all_eq_true, List.mem_range, Bool.or_eq_true, bne_iff_ne]

theorem checkSections_iff (n : ℕ) (s : CfgSections) : checkSections n s = true ↔ CompleteSections n s := by
  unfold checkSections
  simp only [Bool.and_eq_true, List.all_eq_true]
  constructor
  · rintro ⟨⟨⟨⟨h0, h1⟩, h2⟩, h3⟩, h4⟩
    exact ⟨by simpa using h0, fun e he => (checkMat_iff _).mp (h1 e he), fun e he => (checkFlow_iff _).mp (h2 e he), fun e he => (checkSed_iff n _).mp (h3 e he),
      fun e he => by have := h4 e he; unfold checkSal at this; simpa using this⟩
  · rintro ⟨h0, h1, h2, h3, h4⟩
    exact ⟨⟨⟨⟨by simpa using h0, fun e he => (checkMat_iff _).mpr (h1 e he)⟩, fun e he => (checkFlow_iff _).mpr (h2 e he)⟩, fun e he => (checkSed_iff n _).mpr (h3 e he)⟩,
      fun e he => by unfold checkSal; simpa using h4 e he⟩

/-! ### Replacement -/

theorem replaceFirst_mem {α : Type} {o e : Entry α} {l : List (Entry α)} (h : e ∈ replaceFirst o l) : e = o ∨ e ∈ l := by
  induction l with
  | nil => cases h
  | cons x l ih =>
    unfold replaceFirst at h
    by_cases hx : x.name = o.name
    · rw [if_pos hx] at h
      rcases List.mem_cons.mp h with h | h
      · exact Or.inl h
      · exact Or.inr (List.mem_cons_of_mem _ h)
    · rw [if_neg hx] at h
      rcases List.mem_cons.mp h with h | h
      · exact Or.inr (h ▸ List.mem_cons_self)
      · rcases ih h with h | h
        · exact Or.inl h
        · exact Or.inr (List.mem_cons_of_mem _ h)

theorem overrideAll_mem {α : Type} {base ovs : List (Entry α)} {e : Entry α} (h : e ∈ overrideAll base ovs) : FromEither base ovs e := by
  unfold overrideAll at h
  induction ovs generalizing base with
  | nil => exact Or.inl h
  | cons o os ih =>
    rw [List.foldl_cons] at h
    rcases ih h with h | h
    · rcases replaceFirst_mem h with h | h
      · exact Or.inr (h ▸ List.mem_cons_self)
      · exact Or.inl h
    · exact Or.inr (List.mem_cons_of_mem _ h)

/-- The sections before parsers are made. -/
def chosen (base : CfgSections) (m : Option CfgSections) : CfgSections :=
  match m with
  | none => base
  | some m => applyMember base m

theorem readSections_ok {n : ℕ} {base s : CfgSections} {m : Option CfgSections} (h : readSections n base m = .ok s) :
    checkSections n base = true ∧ s = compileSections n (chosen base m) := by
  unfold readSections at h
  by_cases hc : checkSections n base = false
  · rw [if_pos hc] at h; cases h
  · rw [if_neg hc] at h
    refine ⟨by simpa using hc, ?_⟩
    cases m with
    | none => cases h; rfl
    | some m => cases h; rfl

/-! ### C127 -/

/-- A configuration is accepted exactly if its own entries are complete, with or without an ensemble; the entries of the members do not matter. -/
theorem C127_accepted_iff (n : ℕ) (base : CfgSections) (m : Option CfgSections) : (∃ s, readSections n base m = .ok s) ↔ CompleteSections n base := by
  rw [← checkSections_iff]
  constructor
  · rintro ⟨s, h⟩
    exact (readSections_ok h).1
  · intro h
    unfold readSections
    rw [if_neg (by rw [h]; decide)]
    cases m with
    | none => exact ⟨_, rfl⟩
    | some m => exact ⟨_, rfl⟩

/-- Every flow condition a run computes with has parsers for its own texts, also one that comes from an ensemble member; the same holds for the salinity conditions, for the classes of the
sediment conditions, and for each material with an expression. -/
theorem C127_parsers {n : ℕ} {base s : CfgSections} {m : Option CfgSections} (h : readSections n base m = .ok s) :
    (∀ e ∈ s.flow, e.value.pHeight = some e.value.height ∧ e.value.pXMom = some e.value.xMom ∧ e.value.pYMom = some e.value.yMom ∧ e.value.pRate = some e.value.rate) ∧
    (∀ e ∈ s.sediment, ∀ j < n, (e.value.classes j).value = some (e.value.classes j).expr) ∧
    (∀ e ∈ s.salinity, e.value.value = some e.value.expr) ∧
    (∀ e ∈ s.materials, e.value.expr ≠ [] → e.value.value = some e.value.expr) := by
  obtain ⟨-, rfl⟩ := readSections_ok h
  refine ⟨?_, ?_, ?_, ?_⟩
  · intro e he
    obtain ⟨x, -, rfl⟩ := List.mem_map.mp he
    exact ⟨rfl, rfl, rfl, rfl⟩
  · intro e he j hj
    obtain ⟨x, -, rfl⟩ := List.mem_map.mp he
    show (if j < n then _ else _ : CompEntry).value = some (if j < n then _ else _ : CompEntry).expr
    rw [if_pos hj]
  · intro e he
    obtain ⟨x, -, rfl⟩ := List.mem_map.mp he
    rfl
  · intro e he hx
    obtain ⟨x, -, rfl⟩ := List.mem_map.mp he
    show (compileMat x.value).value = some (compileMat x.value).expr
    have hx : (compileMat x.value).expr ≠ [] := hx
    unfold compileMat at hx ⊢
    by_cases h0 : x.value.expr ≠ []
    · rw [if_pos h0]
    · rw [if_neg h0] at hx; exact absurd hx h0

/-- Making parsers changes no text, file or name, and the entries are those of the base configuration with the replacements of the member (whose order and names C15 describes). -/
theorem C127_texts {n : ℕ} {base s m : CfgSections} (h : readSections n base (some m) = .ok s) :
    s.flow.map (fun e => (e.name, e.value.height, e.value.xMom, e.value.yMom, e.value.rate, e.value.file)) =
      (overrideAll base.flow m.flow).map (fun e => (e.name, e.value.height, e.value.xMom, e.value.yMom, e.value.rate, e.value.file)) ∧
    s.materials.map (fun e => (e.name, e.value.expr, e.value.file)) = (overrideAll base.materials m.materials).map (fun e => (e.name, e.value.expr, e.value.file)) ∧
    s.sediment.map (fun e => (e.name, fun j => ((e.value.classes j).expr, (e.value.classes j).file))) =
      (overrideAll base.sediment m.sediment).map (fun e => (e.name, fun j => ((e.value.classes j).expr, (e.value.classes j).file))) ∧
    s.salinity.map (fun e => (e.name, e.value.expr)) = (overrideAll base.salinity m.salinity).map (fun e => (e.name, e.value.expr)) := by
  obtain ⟨-, rfl⟩ := readSections_ok h
  refine ⟨?_, ?_, ?_, ?_⟩
  · show List.map _ (List.map _ (overrideAll base.flow m.flow)) = _
    rw [List.map_map]
    rfl
  · show List.map _ (List.map _ (overrideAll base.materials m.materials)) = _
    rw [List.map_map]
    refine List.map_congr_left (fun e _ => ?_)
    show (e.name, (compileMat e.value).expr, (compileMat e.value).file) = _
    unfold compileMat
    split <;> rfl
  · show List.map _ (List.map _ (overrideAll base.sediment m.sediment)) = _
    rw [List.map_map]
    refine List.map_congr_left (fun e _ => ?_)
    show (e.name, fun j => (((compileSed n e.value).classes j).expr, ((compileSed n e.value).classes j).file)) = _
    congr 1
    funext j
    show ((if j < n then _ else _ : CompEntry).expr, (if j < n then _ else _ : CompEntry).file) = _
    by_cases hj : j < n
    · rw [if_pos hj]
    · rw [if_neg hj]
  · show List.map _ (List.map _ (overrideAll base.salinity m.salinity)) = _
    rw [List.map_map]
    rfl

theorem matOrigin_of_check {e : MatEntry} (h : checkMat e = true) : ∃ o, matOrigin (compileMat e) = .ok o ∧ o.Given := by
  unfold matOrigin compileMat
  rcases (checkMat_iff e).mp h with ⟨hx, hf⟩ | ⟨hx, hf, -⟩
  · rw [if_pos hx, if_neg (show ¬ e.file ≠ [] from fun h => h hf)]
    exact ⟨.text e.expr, rfl, hx⟩
  · rw [if_neg (show ¬ e.expr ≠ [] from fun h => h hx), if_pos hf]
    exact ⟨.file e.file, rfl, hf⟩

/-- If the entries of the member would pass the checks too, each material has a value that the user gave. Without this hypothesis it fails, see below. -/
theorem C127_materials_partial {n : ℕ} {base s : CfgSections} {m : Option CfgSections} (h : readSections n base m = .ok s)
    (hm : ∀ m', m = some m' → ∀ e ∈ m'.materials, checkMat e.value = true) : ∀ e ∈ s.materials, ∃ o, matOrigin e.value = .ok o ∧ o.Given := by
  obtain ⟨hc, rfl⟩ := readSections_ok h
  intro e he
  obtain ⟨x, hx, rfl⟩ := List.mem_map.mp he
  unfold checkSections at hc
  simp only [Bool.and_eq_true, List.all_eq_true] at hc
  have hbase : ∀ e ∈ base.materials, checkMat e.value = true := hc.1.1.1.2
  have hx : checkMat x.value = true := by
    cases m with
    | none => exact hbase x hx
    | some m' =>
      rcases overrideAll_mem (show x ∈ overrideAll base.materials m'.materials from hx) with h | h
      · exact hbase x h
      · exact hm m' rfl x h
  exact matOrigin_of_check hx

/-- A run without an ensemble computes with no material that was not given, and evaluates no parser that does not exist: neither for a material nor for the water height. -/
theorem C127_single {n : ℕ} {base s : CfgSections} (h : readSections n base none = .ok s) :
    (∀ e ∈ s.materials, ∃ o, matOrigin e.value = .ok o ∧ o.Given) ∧ ∀ e ∈ s.flow, ∃ o, heightOrigin e.value = .ok o := by
  refine ⟨C127_materials_partial h (fun m' h => by cases h), ?_⟩
  intro e he
  have hp := ((C127_parsers h).1 e he).1
  unfold heightOrigin
  by_cases hf : e.value.file ≠ []
  · rw [if_pos hf]; exact ⟨_, rfl⟩
  · rw [if_neg hf, hp]; exact ⟨_, rfl⟩

/-- The base configuration is checked as a whole for every member: what it lacks is refused even if each member replaces it. -/
theorem C127_base_checked {n : ℕ} {base : CfgSections} {e : Entry MatEntry} (he : e ∈ base.materials) (h : e.value.expr = []) (hf : e.value.file = []) (m : Option CfgSections) :
    readSections n base m = .error := by
  unfold readSections
  refine if_pos ?_
  by_contra hc
  have hc : checkSections n base = true := by simpa using hc
  unfold checkSections at hc
  simp only [Bool.and_eq_true, List.all_eq_true] at hc
  have := hc.1.1.1.2 e he
  unfold checkMat at this
  simp [h, hf] at this

/-! ### Examples -/

/-- A configuration with a material, an initial condition, a sediment condition with one class and a salinity condition. -/
def exBaseSections : CfgSections :=
  { gridFile := ['g']
    materials := [⟨['m'], ⟨['1'], [], false, none⟩⟩]
    flow := [⟨['i'], ⟨.dirichlet, ['h'], ['0'], ['0'], [], [], none, none, none, none⟩⟩]
    sediment := [⟨['s'], ⟨fun _ => ⟨['c'], [], none⟩⟩⟩]
    salinity := [⟨['t'], ⟨['3'], none⟩⟩]
    temperature := [] }

/-- A member that replaces the initial condition. -/
def exFlowMember : CfgSections :=
  { gridFile := [], materials := [], flow := [⟨['i'], ⟨.dirichlet, ['x'], ['0'], ['0'], [], [], none, none, none, none⟩⟩], sediment := [], salinity := [], temperature := [] }

/-- A member whose material has neither a value nor a file. -/
def exEmptyMember : CfgSections :=
  { gridFile := [], materials := [⟨['m'], ⟨[], [], false, none⟩⟩], flow := [], sediment := [], salinity := [], temperature := [] }

theorem exBaseSections_check : checkSections 1 exBaseSections = true := by decide +kernel

theorem exRead (m : CfgSections) : readSections 1 exBaseSections (some m) = .ok (compileSections 1 (applyMember exBaseSections m)) := by
  unfold readSections
  rw [if_neg (by rw [exBaseSections_check]; decide)]

/-- The materials of ensemble members are not checked: a member whose material has neither a value nor a file is accepted, and reading the coefficient of that material evaluates a parser
that does not exist. The same entry in the base configuration is refused. -/
theorem C127_member_unchecked_violated : ∃ (base m s : CfgSections) (e : Entry MatEntry), readSections 1 base (some m) = .ok s ∧ e ∈ s.materials ∧ matOrigin e.value = .ub ∧
    readSections 1 (applyMember base m) none = .error := by
  refine ⟨exBaseSections, exEmptyMember, _, ⟨['m'], ⟨[], [], false, none⟩⟩, exRead exEmptyMember, ?_, rfl, ?_⟩
  · show _ ∈ List.map (Entry.update compileMat) (overrideAll exBaseSections.materials exEmptyMember.materials)
    simp [exBaseSections, exEmptyMember, overrideAll, replaceFirst, Entry.update, compileMat]
  · exact C127_base_checked (e := ⟨['m'], ⟨[], [], false, none⟩⟩)
      (by simp [applyMember, exBaseSections, exEmptyMember, overrideAll, replaceFirst]) rfl rfl none

/-- A Dirichlet condition of a member without any water height is accepted as well, and its parser has an empty text. -/
theorem C127_member_height_violated : ∃ (base m s : CfgSections) (e : Entry FlowEntry), readSections 1 base (some m) = .ok s ∧ e ∈ s.flow ∧
    heightOrigin e.value = .ok (.text []) ∧ readSections 1 (applyMember base m) none = .error := by
  refine ⟨exBaseSections, { exFlowMember with flow := [⟨['i'], ⟨.dirichlet, [], ['0'], ['0'], [], [], none, none, none, none⟩⟩] }, _,
    ⟨['i'], ⟨.dirichlet, [], ['0'], ['0'], [], [], some [], some ['0'], some ['0'], some []⟩⟩, exRead _, ?_, rfl, ?_⟩
  · simp [compileSections, applyMember, exBaseSections, exFlowMember, overrideAll, replaceFirst, Entry.update, compileFlow]
  · unfold readSections
    refine if_pos ?_
    decide +kernel

example : CompleteSections 1 exBaseSections := (C127_accepted_iff 1 exBaseSections (some exEmptyMember)).mp ⟨_, exRead exEmptyMember⟩

example : ∀ e ∈ (compileSections 1 (applyMember exBaseSections exFlowMember)).flow, e.value.pHeight = some e.value.height :=
  fun e he => ((C127_parsers (exRead exFlowMember)).1 e he).1

/-- The member's text is the one that is evaluated. -/
example : (compileSections 1 (applyMember exBaseSections exFlowMember)).flow.map (fun e => e.value.pHeight) = [some ['x']] := by decide +kernel

example : (compileSections 1 (applyMember exBaseSections exFlowMember)).salinity.map (fun e => (e.name, e.value.expr)) = [(['t'], ['3'])] :=
  (C127_texts (exRead exFlowMember)).2.2.2

example : ∀ e ∈ (compileSections 1 (applyMember exBaseSections exFlowMember)).materials, ∃ o, matOrigin e.value = .ok o ∧ o.Given :=
  C127_materials_partial (exRead exFlowMember) (fun m' h e he => by cases h; simp [exFlowMember] at he)

example : ∀ e ∈ (compileSections 1 exBaseSections).flow, ∃ o, heightOrigin e.value = .ok o := by
  have h : readSections 1 exBaseSections none = .ok (compileSections 1 exBaseSections) := by
    unfold readSections
    rw [if_neg (by rw [exBaseSections_check]; decide)]
  exact (C127_single h).2

/-- A base material without a value is refused even if the member has one. -/
example : readSections 1 { exBaseSections with materials := [⟨['m'], ⟨[], [], false, none⟩⟩] } (some exBaseSections) = .error :=
  C127_base_checked (e := ⟨['m'], ⟨[], [], false, none⟩⟩) (by simp) rfl rfl _

end RDy
