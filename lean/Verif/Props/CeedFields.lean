import Verif.Model.CeedFields
import Verif.Props.Courant
import Verif.Model.Advance
import Mathlib.Tactic

/-!
C78: each CEED Q-function reads and writes the fields it is meant to.
C79: the Courant number reported with CEED is the largest one of all edges.
-/

namespace RDy

/-! ### C78 -/

/-- An argument of a Q-function is what the Q-function takes it to be: the field registered at that position has the
expected name, and enough components for every access. -/
def Fits (slots : List (CField × ℕ)) (a : Access) : Prop :=
  ∃ n, slots[a.pos]? = some (a.what, n) ∧ a.rows ≤ n

/-- The specification for the inputs: if the configuration is accepted, every input used is the right field. -/
def InputsRight (c : CeedCfg) (s : SubOp) : Prop :=
  ∀ qf, c.qf s = some qf → ∀ a ∈ qf.reads c.tracers, Fits (c.inputs s) a

/-- The specification for the outputs: every output written is the right field. -/
def OutputsRight (c : CeedCfg) (s : SubOp) : Prop :=
  ∀ qf, c.qf s = some qf → ∀ a ∈ qf.writes c.tracers, Fits (c.outputs s) a

/-- The specification of completeness: every component of every field registered as an output is written, whatever
branch is taken. -/
def OutputsComplete (c : CeedCfg) (s : SubOp) : Prop :=
  ∀ qf, c.qf s = some qf → ∀ (i : ℕ) (f : CField) (n : ℕ), (c.outputs s)[i]? = some (f, n) →
    ∃ a ∈ qf.writes c.tracers, a.pos = i ∧ a.sure = n

theorem CeedCfg.comps_of_no_tracers {c : CeedCfg} (h : c.tracers = 0) : c.comps = 3 := by
  simp [CeedCfg.comps, h]

theorem CeedCfg.classes_of_no_tracers {c : CeedCfg} (h : c.tracers = 0) : c.classes = 0 := by
  unfold CeedCfg.tracers at h; omega

/-- a membership in a list given by its positions -/
private def Complete (l : List (CField × ℕ)) (w : List Access) : Prop :=
  ∀ (i : ℕ) (f : CField) (n : ℕ), l[i]? = some (f, n) → ∃ a ∈ w, a.pos = i ∧ a.sure = n

private theorem complete_of {l : List (CField × ℕ)} {w : List Access}
    (h : ∀ i : Fin l.length, ∃ a ∈ w, a.pos = i.1 ∧ a.sure = (l[i]).2) :
    Complete l w := by
  intro i f n hi
  obtain ⟨hlt, he⟩ := List.getElem?_eq_some_iff.mp hi
  obtain ⟨a, ha, hp, hs⟩ := h ⟨i, hlt⟩
  refine ⟨a, ha, hp, ?_⟩
  simp only [Fin.getElem_fin, he] at hs
  exact hs

/-- C78 (interior edges, inputs): for every accepted configuration — with or without tracers, first or second order,
with or without hydrostatic reconstruction — the Q-function for interior edges finds in each of its inputs the field
it expects. -/
theorem C78_interior_inputs (c : CeedCfg) : InputsRight c .interior := by
  intro qf hq a ha
  unfold CeedCfg.qf at hq
  by_cases h2 : c.second = true
  · simp only [h2, if_true] at hq
    by_cases h : c.tracers = 0 ∧ c.wb ≠ .hr
    · rw [if_pos h] at hq
      obtain rfl := Option.some.inj hq
      simp only [QF.reads, List.mem_cons, List.not_mem_nil, or_false] at ha
      simp only [CeedCfg.inputs, h2, if_true]
      rcases ha with rfl | rfl | rfl | rfl | rfl <;> exact ⟨_, rfl, by norm_num⟩
    · rw [if_neg h] at hq; simp at hq
  · simp only [h2, Bool.false_eq_true, if_false] at hq
    by_cases hw : c.wb = .hr
    · rw [if_pos hw] at hq
      simp only [CeedCfg.inputs, h2, Bool.false_eq_true, if_false, hw, if_true]
      by_cases ht : c.tracers = 0
      · rw [if_pos ht] at hq
        obtain rfl := Option.some.inj hq
        simp only [QF.reads, List.mem_cons, List.not_mem_nil, or_false] at ha
        rcases ha with rfl | rfl | rfl <;> exact ⟨_, rfl, by simp [CeedCfg.comps]⟩
      · rw [if_neg ht] at hq
        obtain rfl := Option.some.inj hq
        simp only [QF.reads, List.mem_cons, List.not_mem_nil, or_false] at ha
        rcases ha with rfl | rfl | rfl <;> exact ⟨_, rfl, by simp [CeedCfg.comps]⟩
    · rw [if_neg hw] at hq
      simp only [CeedCfg.inputs, h2, Bool.false_eq_true, if_false, if_neg hw]
      by_cases ht : c.tracers = 0
      · rw [if_pos ht] at hq
        by_cases hr : c.riemann = .roe
        · rw [if_pos hr] at hq
          obtain rfl := Option.some.inj hq
          simp only [QF.reads, List.mem_cons, List.not_mem_nil, or_false] at ha
          rw [if_pos (CeedCfg.classes_of_no_tracers ht)]
          rcases ha with rfl | rfl | rfl | rfl | rfl <;> exact ⟨_, rfl, by simp [CeedCfg.comps]⟩
        · rw [if_neg hr] at hq; simp at hq
      · rw [if_neg ht] at hq
        by_cases hr : c.riemann = .hllc
        · rw [if_pos hr] at hq; simp at hq
        · rw [if_neg hr] at hq
          obtain rfl := Option.some.inj hq
          simp only [QF.reads, List.mem_cons, List.not_mem_nil, or_false] at ha
          rcases ha with rfl | rfl | rfl <;> exact ⟨_, rfl, by simp [CeedCfg.comps]⟩

/-- C78 (interior edges, outputs): except with hydrostatic reconstruction, each output written by the Q-function for
interior edges is the field it is meant to be, and all components of all outputs are written. -/
theorem C78_interior_outputs_partial (c : CeedCfg) (hw : c.wb ≠ .hr) :
    OutputsRight c .interior ∧ OutputsComplete c .interior := by
  have key : ∀ qf, c.qf .interior = some qf →
      (∀ a ∈ qf.writes c.tracers, Fits (c.outputs .interior) a) ∧
      Complete (c.outputs .interior) (qf.writes c.tracers) := by
    intro qf hq
    unfold CeedCfg.qf at hq
    by_cases h2 : c.second = true
    · simp only [h2, if_true] at hq
      by_cases h : c.tracers = 0 ∧ c.wb ≠ .hr
      · rw [if_pos h] at hq
        obtain rfl := Option.some.inj hq
        have hl : c.outputs .interior = [(.cellLeft, 3), (.cellRight, 3), (.courant, 2)] := by
          simp [CeedCfg.outputs, h2]
        rw [hl]
        refine ⟨fun a ha => ?_, complete_of ?_⟩
        · simp only [QF.writes, List.mem_cons, List.not_mem_nil, or_false] at ha
          rcases ha with rfl | rfl | rfl <;> exact ⟨_, rfl, le_refl _⟩
        · intro i
          fin_cases i <;> simp [QF.writes]
      · rw [if_neg h] at hq; simp at hq
    · simp only [h2, Bool.false_eq_true, if_false, if_neg hw] at hq
      have hl : c.outputs .interior =
          [(.cellLeft, c.comps), (.cellRight, c.comps), (.flux, c.comps), (.courant, 2)] := by
        simp [CeedCfg.outputs, h2]
      rw [hl]
      by_cases ht : c.tracers = 0
      · rw [if_pos ht] at hq
        by_cases hr : c.riemann = .roe
        · rw [if_pos hr] at hq
          obtain rfl := Option.some.inj hq
          rw [CeedCfg.comps_of_no_tracers ht]
          refine ⟨fun a ha => ?_, complete_of ?_⟩
          · simp only [QF.writes, List.mem_cons, List.not_mem_nil, or_false] at ha
            rcases ha with rfl | rfl | rfl | rfl <;> exact ⟨_, rfl, le_refl _⟩
          · intro i
            fin_cases i <;> simp [QF.writes]
        · rw [if_neg hr] at hq; simp at hq
      · rw [if_neg ht] at hq
        by_cases hr : c.riemann = .hllc
        · rw [if_pos hr] at hq; simp at hq
        · rw [if_neg hr] at hq
          obtain rfl := Option.some.inj hq
          refine ⟨fun a ha => ?_, complete_of ?_⟩
          · simp only [QF.writes, List.mem_cons, List.not_mem_nil, or_false] at ha
            rcases ha with rfl | rfl | rfl | rfl <;> exact ⟨_, rfl, le_refl _⟩
          · intro i
            fin_cases i <;> simp [QF.writes, CeedCfg.comps]
  exact ⟨fun qf hq => (key qf hq).1, fun qf hq => (key qf hq).2⟩

/-- C78 is violated with hydrostatic reconstruction: in **every** accepted configuration with it, the Q-function for
interior edges takes for the Courant numbers the position at which the field `flux` is registered; `courant_number`
is not written at all. -/
theorem C78_hr_violated (c : CeedCfg) (hw : c.wb = .hr) (h2 : c.second = false) :
    ¬ OutputsRight c .interior ∧ ¬ OutputsComplete c .interior ∧
    ∀ qf, c.qf .interior = some qf →
      (∀ a ∈ qf.writes c.tracers, (c.outputs .interior)[a.pos]? ≠ some (CField.courant, 2)) ∧
      (∃ a ∈ qf.writes c.tracers, a.what = .courant ∧
        (c.outputs .interior)[a.pos]? = some (.flux, c.comps)) := by
  have hl : c.outputs .interior =
      [(.cellLeft, c.comps), (.cellRight, c.comps), (.flux, c.comps), (.courant, 2)] := by
    simp [CeedCfg.outputs, h2]
  have hqf : c.qf .interior = if c.tracers = 0 then some .sweFluxHR else some .tracerFluxHR := by
    simp [CeedCfg.qf, h2, hw]
  have key : ∀ qf, c.qf .interior = some qf →
      (∀ a ∈ qf.writes c.tracers, (c.outputs .interior)[a.pos]? ≠ some (CField.courant, 2)) ∧
      (∃ a ∈ qf.writes c.tracers, a.what = .courant ∧
        (c.outputs .interior)[a.pos]? = some (.flux, c.comps)) := by
    intro qf hq
    rw [hqf] at hq
    rw [hl]
    by_cases ht : c.tracers = 0
    · rw [if_pos ht] at hq
      obtain rfl := Option.some.inj hq
      exact ⟨by simp [QF.writes], ⟨2, .courant, 2, 2⟩, by simp [QF.writes], rfl, rfl⟩
    · rw [if_neg ht] at hq
      obtain rfl := Option.some.inj hq
      exact ⟨by simp [QF.writes], ⟨2, .courant, 2, 2⟩, by simp [QF.writes], rfl, rfl⟩
  obtain ⟨qf, hq⟩ : ∃ qf, c.qf .interior = some qf := by
    rw [hqf]; split_ifs
    · exact ⟨_, rfl⟩
    · exact ⟨_, rfl⟩
  refine ⟨fun H => ?_, fun H => ?_, key⟩
  · obtain ⟨a, ha, hc, hs⟩ := (key qf hq).2
    obtain ⟨n, hn, -⟩ := H qf hq a ha
    rw [hs, hc] at hn
    simp at hn
  · obtain ⟨a, ha, hp, -⟩ := H qf hq 3 .courant 2 (by rw [hl]; rfl)
    exact (key qf hq).1 a ha (by rw [hp, hl]; rfl)

/-- C78 (boundaries, flow only): with no tracers, the Q-function of each boundary reads the right fields, writes the
right fields, and writes all of them, whatever the type of the boundary condition. -/
theorem C78_boundary_flow (c : CeedCfg) (t : CondType) (ht : c.tracers = 0) :
    InputsRight c (.boundary t) ∧ OutputsRight c (.boundary t) ∧ OutputsComplete c (.boundary t) := by
  have hc := CeedCfg.comps_of_no_tracers ht
  have hcl := CeedCfg.classes_of_no_tracers ht
  have key : ∀ qf, c.qf (.boundary t) = some qf →
      (∀ a ∈ qf.reads c.tracers, Fits (c.inputs (.boundary t)) a) ∧
      (∀ a ∈ qf.writes c.tracers, Fits (c.outputs (.boundary t)) a) ∧
      Complete (c.outputs (.boundary t)) (qf.writes c.tracers) := by
    intro qf hq
    cases t with
    | dirichlet =>
      simp only [CeedCfg.qf, if_pos ht] at hq
      by_cases hr : c.riemann = .roe
      · rw [if_pos hr] at hq
        obtain rfl := Option.some.inj hq
        simp only [CeedCfg.inputs, CeedCfg.outputs, hc, hcl, if_true]
        refine ⟨fun a ha => ?_, fun a ha => ?_, complete_of fun i => ?_⟩
        · simp only [QF.reads, List.mem_cons, List.not_mem_nil, or_false] at ha
          rcases ha with rfl | rfl | rfl | rfl | rfl <;> exact ⟨_, rfl, le_refl _⟩
        · simp only [QF.writes, List.mem_cons, List.not_mem_nil, or_false] at ha
          rcases ha with rfl | rfl | rfl <;> exact ⟨_, rfl, le_refl _⟩
        · fin_cases i <;> simp [QF.writes]
      · rw [if_neg hr] at hq; simp at hq
    | reflecting =>
      simp only [CeedCfg.qf, if_pos ht] at hq
      by_cases hr : c.riemann = .roe
      · rw [if_pos hr] at hq
        obtain rfl := Option.some.inj hq
        simp only [CeedCfg.inputs, CeedCfg.outputs, hc, hcl, if_true]
        refine ⟨fun a ha => ?_, fun a ha => ?_, complete_of fun i => ?_⟩
        · simp only [QF.reads, List.mem_cons, List.not_mem_nil, or_false] at ha
          rcases ha with rfl | rfl | rfl | rfl <;> exact ⟨_, rfl, le_refl _⟩
        · simp only [QF.writes, List.mem_cons, List.not_mem_nil, or_false] at ha
          rcases ha with rfl | rfl | rfl <;> exact ⟨_, rfl, le_refl _⟩
        · fin_cases i <;> simp [QF.writes]
      · rw [if_neg hr] at hq; simp at hq
    | criticalOutflow =>
      simp only [CeedCfg.qf, if_pos ht] at hq
      by_cases hr : c.riemann = .roe
      · rw [if_pos hr] at hq
        obtain rfl := Option.some.inj hq
        simp only [CeedCfg.inputs, CeedCfg.outputs, hc, hcl, if_true]
        refine ⟨fun a ha => ?_, fun a ha => ?_, complete_of fun i => ?_⟩
        · simp only [QF.reads, List.mem_cons, List.not_mem_nil, or_false] at ha
          rcases ha with rfl | rfl | rfl | rfl <;> exact ⟨_, rfl, le_refl _⟩
        · simp only [QF.writes, List.mem_cons, List.not_mem_nil, or_false] at ha
          rcases ha with rfl | rfl | rfl <;> exact ⟨_, rfl, le_refl _⟩
        · fin_cases i <;> simp [QF.writes]
      · rw [if_neg hr] at hq; simp at hq
    | neumann => simp [CeedCfg.qf] at hq
    | runoff => simp [CeedCfg.qf] at hq
  exact ⟨fun qf hq => (key qf hq).1, fun qf hq => (key qf hq).2.1, fun qf hq => (key qf hq).2.2⟩

private theorem qf_dirichlet {c : CeedCfg} (ht : c.tracers ≠ 0) (hr : c.riemann ≠ .hllc) :
    c.qf (.boundary .dirichlet) = some .tracerDirichlet := by
  simp [CeedCfg.qf, ht, hr]

private theorem qf_reflecting {c : CeedCfg} (ht : c.tracers ≠ 0) (hr : c.riemann ≠ .hllc) :
    c.qf (.boundary .reflecting) = some .tracerReflecting := by
  simp [CeedCfg.qf, ht, hr]

/-- C78 (boundaries with tracers, inputs): the inputs are right exactly if the boundary is not a Dirichlet boundary or
there is a sediment class. -/
theorem C78_boundary_inputs_partial (c : CeedCfg) (t : CondType) (ht : c.tracers ≠ 0) (hr : c.riemann ≠ .hllc) :
    InputsRight c (.boundary t) ↔ ¬ (t = .dirichlet ∧ c.classes = 0) := by
  constructor
  · rintro H ⟨rfl, hcl⟩
    obtain ⟨n, hn, -⟩ := H _ (qf_dirichlet ht hr) ⟨2, .qDirichlet, 3 + c.tracers, 3 + c.tracers⟩
      (by simp [QF.reads])
    simp [CeedCfg.inputs, hcl] at hn
  · intro H qf hq a ha
    cases t with
    | dirichlet =>
      rw [qf_dirichlet ht hr] at hq
      obtain rfl := Option.some.inj hq
      have hcl : c.classes ≠ 0 := fun h => H ⟨rfl, h⟩
      simp only [CeedCfg.inputs, if_neg hcl, if_true]
      simp only [QF.reads, List.mem_cons, List.not_mem_nil, or_false] at ha
      rcases ha with rfl | rfl | rfl <;> exact ⟨_, rfl, by simp [CeedCfg.comps]⟩
    | reflecting =>
      rw [qf_reflecting ht hr] at hq
      obtain rfl := Option.some.inj hq
      simp only [CeedCfg.inputs]
      simp only [QF.reads, List.mem_cons, List.not_mem_nil, or_false] at ha
      rcases ha with rfl | rfl <;> exact ⟨_, rfl, by simp [CeedCfg.comps]⟩
    | criticalOutflow => simp [CeedCfg.qf, ht] at hq
    | neumann => simp [CeedCfg.qf] at hq
    | runoff => simp [CeedCfg.qf] at hq

/-- C78 is violated on Dirichlet boundaries when salinity or heat is transported without sediment: the Q-function
takes the water surface at one vertex, a field with one component, for the boundary values of all unknowns; all of
these but the first are read from beyond the field. -/
theorem C78_dirichlet_violated (c : CeedCfg) (hcl : c.classes = 0) (hsh : c.salinity = true ∨ c.heat = true)
    (hr : c.riemann ≠ .hllc) :
    ∃ qf, c.qf (.boundary .dirichlet) = some qf ∧ ∃ a ∈ qf.reads c.tracers, a.what = .qDirichlet ∧ 4 ≤ a.rows ∧
      (c.inputs (.boundary .dirichlet))[a.pos]? = some (.etaBeg, 1) := by
  have ht : c.tracers ≠ 0 := by
    unfold CeedCfg.tracers
    rcases hsh with h | h <;> simp [h]
  refine ⟨_, qf_dirichlet ht hr, ⟨2, .qDirichlet, 3 + c.tracers, 3 + c.tracers⟩, by simp [QF.reads], rfl, ?_, ?_⟩
  · show 4 ≤ 3 + c.tracers
    omega
  · simp [CeedCfg.inputs, hcl]

/-- C78 (boundaries with tracers, outputs): the outputs are right exactly if the boundary is not a Dirichlet boundary,
and complete exactly if it is not a reflecting one. -/
theorem C78_boundary_outputs_partial (c : CeedCfg) (t : CondType) (ht : c.tracers ≠ 0) (hr : c.riemann ≠ .hllc) :
    (OutputsRight c (.boundary t) ↔ t ≠ .dirichlet) ∧ (OutputsComplete c (.boundary t) ↔ t ≠ .reflecting) := by
  refine ⟨⟨?_, ?_⟩, ⟨?_, ?_⟩⟩
  · rintro H rfl
    obtain ⟨n, hn, hle⟩ := H _ (qf_dirichlet ht hr) ⟨2, .courant, 2, 1⟩ (by simp [QF.writes])
    simp [CeedCfg.outputs] at hn
    subst hn
    exact absurd hle (by norm_num)
  · intro h qf hq a ha
    cases t with
    | dirichlet => exact absurd rfl h
    | reflecting =>
      rw [qf_reflecting ht hr] at hq
      obtain rfl := Option.some.inj hq
      simp only [QF.writes, List.mem_cons, List.not_mem_nil, or_false] at ha
      rcases ha with rfl | rfl <;> exact ⟨_, rfl, le_refl _⟩
    | criticalOutflow => simp [CeedCfg.qf, ht] at hq
    | neumann => simp [CeedCfg.qf] at hq
    | runoff => simp [CeedCfg.qf] at hq
  · rintro H rfl
    obtain ⟨a, ha, hp, -⟩ := H _ (qf_reflecting ht hr) 1 .flux c.comps rfl
    simp only [QF.writes, List.mem_cons, List.not_mem_nil, or_false] at ha
    rcases ha with rfl | rfl <;> simp at hp
  · intro h qf hq
    cases t with
    | dirichlet =>
      rw [qf_dirichlet ht hr] at hq
      obtain rfl := Option.some.inj hq
      apply complete_of
      intro i
      fin_cases i <;> simp [QF.writes, CeedCfg.comps, CeedCfg.outputs]
    | reflecting => exact absurd rfl h
    | criticalOutflow => simp [CeedCfg.qf, ht] at hq
    | neumann => simp [CeedCfg.qf] at hq
    | runoff => simp [CeedCfg.qf] at hq

/-- C78 is violated on reflecting boundaries with tracers: the boundary fluxes of the output are never written, so
they stay as they were (0). -/
theorem C78_reflecting_flux_violated (c : CeedCfg) (ht : c.tracers ≠ 0) (hr : c.riemann ≠ .hllc) :
    ∃ qf, c.qf (.boundary .reflecting) = some qf ∧ (c.outputs (.boundary .reflecting))[1]? = some (.flux, c.comps) ∧
      ∀ a ∈ qf.writes c.tracers, a.pos ≠ 1 :=
  ⟨_, qf_reflecting ht hr, rfl, by simp [QF.writes]⟩

/-- C78 is violated on Dirichlet boundaries with tracers: where both sides are dry, two Courant numbers are written to
a field with one component. -/
theorem C78_dry_courant_violated (c : CeedCfg) (ht : c.tracers ≠ 0) (hr : c.riemann ≠ .hllc) :
    ∃ qf, c.qf (.boundary .dirichlet) = some qf ∧ ∃ a ∈ qf.writes c.tracers, a.rows = 2 ∧
      (c.outputs (.boundary .dirichlet))[a.pos]? = some (.courant, 1) :=
  ⟨_, qf_dirichlet ht hr, ⟨2, .courant, 2, 1⟩, by simp [QF.writes], rfl, rfl⟩

/-- C78 (sources): the source Q-functions read the right fields, write the right fields, and write all of them, in
every configuration. -/
theorem C78_source (c : CeedCfg) :
    InputsRight c .source ∧ OutputsRight c .source ∧ OutputsComplete c .source := by
  have key : ∀ qf, c.qf .source = some qf →
      (∀ a ∈ qf.reads c.tracers, Fits (c.inputs .source) a) ∧
      (∀ a ∈ qf.writes c.tracers, Fits (c.outputs .source) a) ∧
      Complete (c.outputs .source) (qf.writes c.tracers) := by
    intro qf hq
    simp only [CeedCfg.qf] at hq
    simp only [CeedCfg.inputs, CeedCfg.outputs]
    have hcase : (c.tracers = 0 ∧ (qf = .sweSourcesHR ∨ qf = .sweSources)) ∨
        (qf = .tracerSourcesHR ∨ qf = .tracerSources) := by
      by_cases ht : c.tracers = 0
      · rw [if_pos ht] at hq
        by_cases hw : c.wb = .hr
        · rw [if_pos hw] at hq; exact Or.inl ⟨ht, Or.inl (Option.some.inj hq).symm⟩
        · rw [if_neg hw] at hq; exact Or.inl ⟨ht, Or.inr (Option.some.inj hq).symm⟩
      · rw [if_neg ht] at hq
        by_cases hx : c.source = .xq2018
        · rw [if_pos hx] at hq; simp at hq
        · rw [if_neg hx] at hq
          by_cases hw : c.wb = .hr
          · rw [if_pos hw] at hq; exact Or.inr (Or.inl (Option.some.inj hq).symm)
          · rw [if_neg hw] at hq; exact Or.inr (Or.inr (Option.some.inj hq).symm)
    rcases hcase with ⟨ht, rfl | rfl⟩ | rfl | rfl
    · rw [CeedCfg.comps_of_no_tracers ht]
      refine ⟨fun a ha => ?_, fun a ha => ?_, complete_of fun i => ?_⟩
      · simp only [QF.reads, List.mem_cons, List.not_mem_nil, or_false] at ha
        rcases ha with rfl | rfl | rfl | rfl <;> exact ⟨_, rfl, le_refl _⟩
      · simp only [QF.writes, List.mem_cons, List.not_mem_nil, or_false] at ha
        rcases ha with rfl | rfl | rfl <;> exact ⟨_, rfl, le_refl _⟩
      · fin_cases i <;> simp [QF.writes]
    · rw [CeedCfg.comps_of_no_tracers ht]
      refine ⟨fun a ha => ?_, fun a ha => ?_, complete_of fun i => ?_⟩
      · simp only [QF.reads, List.mem_cons, List.not_mem_nil, or_false] at ha
        rcases ha with rfl | rfl | rfl | rfl | rfl <;> exact ⟨_, rfl, le_refl _⟩
      · simp only [QF.writes, List.mem_cons, List.not_mem_nil, or_false] at ha
        rcases ha with rfl | rfl | rfl <;> exact ⟨_, rfl, le_refl _⟩
      · fin_cases i <;> simp [QF.writes]
    · refine ⟨fun a ha => ?_, fun a ha => ?_, complete_of fun i => ?_⟩
      · simp only [QF.reads, List.mem_cons, List.not_mem_nil, or_false] at ha
        rcases ha with rfl | rfl | rfl | rfl <;> exact ⟨_, rfl, le_refl _⟩
      · simp only [QF.writes, List.mem_cons, List.not_mem_nil, or_false] at ha
        rcases ha with rfl | rfl | rfl <;> exact ⟨_, rfl, le_refl _⟩
      · fin_cases i <;> simp [QF.writes, CeedCfg.comps]
    · refine ⟨fun a ha => ?_, fun a ha => ?_, complete_of fun i => ?_⟩
      · simp only [QF.reads, List.mem_cons, List.not_mem_nil, or_false] at ha
        rcases ha with rfl | rfl | rfl | rfl | rfl <;> exact ⟨_, rfl, le_refl _⟩
      · simp only [QF.writes, List.mem_cons, List.not_mem_nil, or_false] at ha
        rcases ha with rfl | rfl | rfl <;> exact ⟨_, rfl, le_refl _⟩
      · fin_cases i <;> simp [QF.writes, CeedCfg.comps]
  exact ⟨fun qf hq => (key qf hq).1, fun qf hq => (key qf hq).2.1, fun qf hq => (key qf hq).2.2⟩

/-- C78 (vertices): the Q-function for the water surface at vertices finds its fields, but the solution is registered
with as many components as it has exactly if neither salinity nor heat is transported. -/
theorem C78_eta_partial (c : CeedCfg) :
    InputsRight c .etaVertices ∧ OutputsRight c .etaVertices ∧ OutputsComplete c .etaVertices ∧
    ((c.inputs .etaVertices)[1]? = some (.q, c.comps) ↔ c.salinity = false ∧ c.heat = false) := by
  refine ⟨fun qf hq a ha => ?_, fun qf hq a ha => ?_, fun qf hq => ?_, ?_⟩
  · obtain rfl := Option.some.inj hq
    simp only [QF.reads, List.mem_cons, List.not_mem_nil, or_false] at ha
    rcases ha with rfl | rfl <;> exact ⟨_, rfl, by simp⟩
  · obtain rfl := Option.some.inj hq
    simp only [QF.writes, List.mem_cons, List.not_mem_nil, or_false] at ha
    subst ha
    exact ⟨_, rfl, le_refl _⟩
  · obtain rfl := Option.some.inj hq
    apply complete_of
    intro i
    fin_cases i
    simp [QF.writes, CeedCfg.outputs]
  · simp only [CeedCfg.inputs, List.getElem?_cons_succ, List.getElem?_cons_zero, Option.some.injEq, Prod.mk.injEq,
      true_and, CeedCfg.comps, CeedCfg.tracers]
    cases c.salinity <;> cases c.heat <;> (simp; try omega)

/-- a configuration with flow only -/
def exCfg : CeedCfg := ⟨0, false, false, .none, .semiImplicit, .roe, false⟩
/-- two sediment classes and salinity -/
def exCfgSed : CeedCfg := ⟨2, true, false, .none, .semiImplicit, .upwindRoe, false⟩
/-- salinity only -/
def exCfgSalt : CeedCfg := ⟨0, true, false, .none, .semiImplicit, .roe, false⟩
/-- hydrostatic reconstruction -/
def exCfgHR : CeedCfg := ⟨0, false, false, .hr, .semiImplicit, .roe, false⟩
/-- second order -/
def exCfg2 : CeedCfg := ⟨0, false, false, .none, .semiImplicit, .roe, true⟩

example : exCfg.qf .interior = some .sweFlux ∧ exCfgSed.qf .interior = some .tracerFlux ∧
    exCfgHR.qf .interior = some .sweFluxHR ∧ exCfg2.qf .interior = some .sweFluxMuscl := by decide
example : exCfg.wb ≠ .hr ∧ exCfgSed.wb ≠ .hr ∧ exCfg2.wb ≠ .hr := by decide
example : exCfgHR.wb = .hr ∧ exCfgHR.second = false := by decide
example : exCfg.tracers = 0 ∧ exCfg.qf (.boundary .criticalOutflow) = some .sweOutflow := by decide
example : exCfgSed.tracers ≠ 0 ∧ exCfgSed.riemann ≠ .hllc ∧ InputsRight exCfgSed (.boundary .dirichlet) :=
  ⟨by decide, by decide, (C78_boundary_inputs_partial exCfgSed .dirichlet (by decide) (by decide)).mpr (by decide)⟩
example : exCfgSalt.classes = 0 ∧ (exCfgSalt.salinity = true ∨ exCfgSalt.heat = true) ∧ exCfgSalt.riemann ≠ .hllc ∧
    ¬ InputsRight exCfgSalt (.boundary .dirichlet) :=
  ⟨rfl, Or.inl rfl, by decide, fun h =>
    (C78_boundary_inputs_partial exCfgSalt .dirichlet (by decide) (by decide)).mp h ⟨rfl, rfl⟩⟩

/-! ### C79 -/

/-- Specification: `x` is the largest Courant number of the wet edges for the time step `dt`, or 0. -/
def LargestCourant (dt : ℝ) (es : List CEdge) (x : ℝ) : Prop :=
  (∀ e ∈ es, e.wet = true → cellCourant e.amax e.len e.areaL dt ≤ x ∧
    ∀ a c, e.right = some (a, c) → cellCourant e.amax e.len a dt ≤ x) ∧
  (x = 0 ∨ ∃ e ∈ es, e.wet = true ∧
    (x = cellCourant e.amax e.len e.areaL dt ∨
     ∃ a c, e.right = some (a, c) ∧ x = cellCourant e.amax e.len a dt))

/-- The edges with two cells belong to the sub-operator for interior edges, the others to those of the boundaries. -/
def Placed (kind : ℕ → SubOp) (edge : ℕ → CEdge) (n : ℕ) : Prop :=
  ∀ i, i < n → (kind i = .interior ∧ (edge i).right ≠ none) ∨ (∃ t, kind i = .boundary t ∧ (edge i).right = none)

/-- C79 (time step): after any evaluations of the right-hand side, the flux and source operators hold the time step of
the last one, but the operator for interior edges of the second-order scheme still holds 0. -/
theorem C79_time_step_partial (pre : List ℝ) (dt : ℝ) :
    ((pre ++ [dt]).foldl CeedDt.apply CeedDt.init).flux = dt ∧
    ((pre ++ [dt]).foldl CeedDt.apply CeedDt.init).source = dt ∧
    ((pre ++ [dt]).foldl CeedDt.apply CeedDt.init).muscl = 0 := by
  have inv : ∀ (l : List ℝ) (s : CeedDt), s.flux = s.op ∧ s.source = s.op ∧ s.muscl = 0 →
      (l.foldl CeedDt.apply s).flux = (l.foldl CeedDt.apply s).op ∧
      (l.foldl CeedDt.apply s).source = (l.foldl CeedDt.apply s).op ∧ (l.foldl CeedDt.apply s).muscl = 0 := by
    intro l
    induction l with
    | nil => exact fun s h => h
    | cons x l ih =>
      intro s h
      rw [List.foldl_cons]
      apply ih
      unfold CeedDt.apply
      by_cases hx : s.op ≠ x
      · rw [if_pos hx]; exact ⟨rfl, rfl, h.2.2⟩
      · rw [if_neg hx]; exact h
  obtain ⟨h1, h2, h3⟩ := inv pre CeedDt.init ⟨rfl, rfl, rfl⟩
  rw [List.foldl_append, List.foldl_cons, List.foldl_nil]
  generalize pre.foldl CeedDt.apply CeedDt.init = s at h1 h2 h3
  unfold CeedDt.apply
  by_cases hx : s.op ≠ dt
  · rw [if_pos hx]; exact ⟨rfl, rfl, h3⟩
  · rw [if_neg hx]
    rw [not_not] at hx
    exact ⟨h1.trans hx, h2.trans hx, h3⟩

private theorem run_fst (c : CeedCfg) (kind : ℕ → SubOp) (runs : List CeedRun) (s : CeedDt × (ℕ → ℕ → ℝ)) :
    (runs.foldl (c.run kind) s).1 = (runs.map CeedRun.dt).foldl CeedDt.apply s.1 := by
  induction runs generalizing s with
  | nil => rfl
  | cons r runs ih => rw [List.foldl_cons, ih, List.map_cons, List.foldl_cons]; rfl

/-- the time step seen by the flux kernels in the last evaluation -/
private theorem dt_seen (c : CeedCfg) (kind : ℕ → SubOp) (pre : List CeedRun) (r : CeedRun) (t : CondType) :
    ((pre.foldl (c.run kind) (CeedDt.init, fun _ _ => 0)).1.apply r.dt).of c .interior =
      (if c.second then 0 else r.dt) ∧
    ((pre.foldl (c.run kind) (CeedDt.init, fun _ _ => 0)).1.apply r.dt).of c (.boundary t) = r.dt := by
  rw [run_fst]
  obtain ⟨h1, -, h3⟩ := C79_time_step_partial (pre.map CeedRun.dt) r.dt
  rw [List.foldl_append, List.foldl_cons, List.foldl_nil] at h1 h3
  simp only [CeedDt.of, h1, h3]
  exact ⟨trivial, trivial⟩

private theorem ceedNums_zero (e : CEdge) (j : ℕ) : (e.ceedNums 0).getD j 0 = 0 := by
  unfold CEdge.ceedNums
  by_cases hw : e.wet = true
  · rw [if_pos hw]
    cases e.right with
    | none => rcases j with _ | j <;> simp
    | some a => rcases j with _ | _ | j <;> simp
  · rw [if_neg hw]
    cases e.right with
    | none => rcases j with _ | j <;> simp
    | some a => rcases j with _ | _ | j <;> simp

/-- hydrostatic reconstruction: nothing is stored for interior edges -/
private theorem store_hr (c : CeedCfg) (hw : c.wb = .hr) (dt : ℝ) (e : CEdge) (other : ℕ → ℕ → ℝ)
    (v : ℕ → ℝ) : c.storeCourant .interior dt e other v = v := by
  unfold CeedCfg.storeCourant
  by_cases h2 : c.second = true
  · have : c.qf .interior = none := by simp [CeedCfg.qf, h2, hw]
    rw [this]
  · rw [Bool.not_eq_true] at h2
    have hl : c.outputs .interior =
        [(.cellLeft, c.comps), (.cellRight, c.comps), (.flux, c.comps), (.courant, 2)] := by
      simp [CeedCfg.outputs, h2]
    by_cases ht : c.tracers = 0
    · have : c.qf .interior = some .sweFluxHR := by simp [CeedCfg.qf, h2, hw, ht]
      rw [this, hl]
      rfl
    · have : c.qf .interior = some .tracerFluxHR := by simp [CeedCfg.qf, h2, hw, ht]
      rw [this, hl]
      rfl

/-- otherwise the numbers of the edge are stored -/
private theorem store_interior (c : CeedCfg) (hw : c.wb ≠ .hr) (hq : (c.qf .interior).isSome) (dt : ℝ) (e : CEdge)
    (other : ℕ → ℕ → ℝ) (v : ℕ → ℝ) (j : ℕ) (hj : j < 2) :
    c.storeCourant .interior dt e other v j = v j + (e.ceedNums dt).getD j 0 := by
  unfold CeedCfg.storeCourant
  by_cases h2 : c.second = true
  · have hl : c.outputs .interior = [(.cellLeft, 3), (.cellRight, 3), (.courant, 2)] := by
      simp [CeedCfg.outputs, h2]
    by_cases ht : c.tracers = 0
    · have : c.qf .interior = some .sweFluxMuscl := by simp [CeedCfg.qf, h2, hw, ht]
      rw [this, hl]
      show (if j < 2 then v j + QF.out c.tracers .sweFluxMuscl dt e other 2 j else v j) = _
      rw [if_pos hj]
      simp [QF.out, QF.writes]
    · simp [CeedCfg.qf, h2, hw, ht] at hq
  · rw [Bool.not_eq_true] at h2
    have hl : c.outputs .interior =
        [(.cellLeft, c.comps), (.cellRight, c.comps), (.flux, c.comps), (.courant, 2)] := by
      simp [CeedCfg.outputs, h2]
    by_cases ht : c.tracers = 0
    · by_cases hr : c.riemann = .roe
      · have : c.qf .interior = some .sweFlux := by simp [CeedCfg.qf, h2, hw, ht, hr]
        rw [this, hl]
        show (if j < 2 then v j + QF.out c.tracers .sweFlux dt e other 3 j else v j) = _
        rw [if_pos hj]
        simp [QF.out, QF.writes]
      · simp [CeedCfg.qf, h2, hw, ht, hr] at hq
    · by_cases hr : c.riemann = .hllc
      · simp [CeedCfg.qf, h2, hw, ht, hr] at hq
      · have : c.qf .interior = some .tracerFlux := by simp [CeedCfg.qf, h2, hw, ht, hr]
        rw [this, hl]
        show (if j < 2 then v j + QF.out c.tracers .tracerFlux dt e other 3 j else v j) = _
        rw [if_pos hj]
        simp [QF.out, QF.writes]

private theorem store_boundary (c : CeedCfg) (t : CondType) (hq : (c.qf (.boundary t)).isSome) (dt : ℝ) (e : CEdge)
    (other : ℕ → ℕ → ℝ) (v : ℕ → ℝ) :
    c.storeCourant (.boundary t) dt e other v 0 = v 0 + (e.ceedNums dt).getD 0 0 := by
  unfold CeedCfg.storeCourant
  obtain ⟨qf, hqf⟩ := Option.isSome_iff_exists.mp hq
  have hcase : qf = .sweDirichlet ∨ qf = .sweReflecting ∨ qf = .sweOutflow ∨ qf = .tracerDirichlet ∨
      qf = .tracerReflecting := by
    by_cases ht : c.tracers = 0
    · by_cases hr : c.riemann = .roe
      · cases t <;> simp [CeedCfg.qf, ht, hr] at hqf <;> simp [← hqf]
      · cases t <;> simp [CeedCfg.qf, ht, hr] at hqf
    · by_cases hr : c.riemann = .hllc
      · cases t <;> simp [CeedCfg.qf, ht, hr] at hqf
      · cases t <;> simp [CeedCfg.qf, ht, hr] at hqf <;> simp [← hqf]
  rw [hqf]
  rcases hcase with rfl | rfl | rfl | rfl | rfl
  · show v 0 + QF.out c.tracers .sweDirichlet dt e other 2 0 = _
    simp [QF.out, QF.writes]
  · show v 0 + QF.out c.tracers .sweReflecting dt e other 2 0 = _
    simp [QF.out, QF.writes]
  · show v 0 + QF.out c.tracers .sweOutflow dt e other 2 0 = _
    simp [QF.out, QF.writes]
  · show v 0 + QF.out c.tracers .tracerDirichlet dt e other 2 0 = _
    simp [QF.out, QF.writes]
  · show v 0 + QF.out c.tracers .tracerReflecting dt e other 2 0 = _
    simp [QF.out, QF.writes]

private theorem hr_untouched (c : CeedCfg) (hw : c.wb = .hr) (kind : ℕ → SubOp) (runs : List CeedRun) (i : ℕ)
    (hk : kind i = .interior) (s : CeedDt × (ℕ → ℕ → ℝ)) :
    (runs.foldl (c.run kind) s).2 i = s.2 i := by
  induction runs generalizing s with
  | nil => rfl
  | cons r runs ih =>
    rw [List.foldl_cons, ih]
    show c.storeCourant (kind i) _ _ _ _ = _
    rw [hk, store_hr c hw]

/-- Specification: the Courant number of side `j` of an edge (0 the left cell, 1 the right one), 0 for dry edges. -/
noncomputable def sideCourant (dt : ℝ) (e : CEdge) (j : ℕ) : ℝ :=
  if e.wet = true then
    match j, e.right with
    | 0, _ => cellCourant e.amax e.len e.areaL dt
    | 1, some (a, _) => cellCourant e.amax e.len a dt
    | _, _ => 0
  else 0

private theorem ceedNums_getD (dt : ℝ) (e : CEdge) (j : ℕ) : (e.ceedNums dt).getD j 0 = sideCourant dt e j := by
  unfold CEdge.ceedNums sideCourant
  by_cases hw : e.wet = true
  · rw [if_pos hw, if_pos hw]
    rcases hr : e.right with _ | ⟨a, b⟩
    · rcases j with _ | _ | j
      · simp [cellCourant]; ring
      · simp
      · simp
    · rcases j with _ | _ | j
      · simp [cellCourant]; ring
      · show e.amax * (e.len / a) * dt = cellCourant e.amax e.len a dt
        unfold cellCourant
        ring
      · simp
  · rw [if_neg hw, if_neg hw]
    rcases hr : e.right with _ | ⟨a, b⟩
    · rcases j with _ | j <;> simp
    · rcases j with _ | _ | j <;> simp

/-- what is found for side `j` of edge `i` after a series of evaluations -/
private theorem read_back (c : CeedCfg) (kind : ℕ → SubOp) (runs : List CeedRun) (i j : ℕ)
    (hk : (c.qf (kind i)).isSome) (hkind : kind i = .interior ∨ ∃ t, kind i = .boundary t) (hj : j < (kind i).courantRows) :
    (runs.foldl (c.run kind) (CeedDt.init, fun _ _ => 0)).2 i j =
      if kind i = .interior ∧ (c.wb = .hr ∨ c.second = true) then 0
      else (runs.map fun r : CeedRun => sideCourant r.dt (r.edge i) j).sum := by
  induction runs using List.reverseRecOn with
  | nil => simp
  | append_singleton pre r ih =>
    have hlast : ((pre ++ [r]).foldl (c.run kind) (CeedDt.init, fun _ _ => 0)).2 i =
        c.storeCourant (kind i)
          (((pre.foldl (c.run kind) (CeedDt.init, fun _ _ => 0)).1.apply r.dt).of c (kind i)) (r.edge i) (r.other i)
          ((pre.foldl (c.run kind) (CeedDt.init, fun _ _ => 0)).2 i) := by
      rw [List.foldl_append, List.foldl_cons, List.foldl_nil]
      rfl
    rw [hlast, List.map_append, List.sum_append]
    rcases hkind with hin | ⟨t, hb⟩
    · by_cases hw : c.wb = .hr
      · rw [if_pos ⟨hin, Or.inl hw⟩] at ih ⊢
        rw [hin, store_hr c hw]
        exact ih
      · rw [hin] at hk hj ih ⊢
        rw [store_interior c hw hk _ _ _ _ j hj, (dt_seen c kind pre r .dirichlet).1, ih]
        by_cases h2 : c.second = true
        · rw [if_pos h2, if_pos ⟨rfl, Or.inr h2⟩, if_pos ⟨rfl, Or.inr h2⟩, ceedNums_zero, add_zero]
        · rw [if_neg h2, if_neg (by rintro ⟨-, h | h⟩ <;> contradiction),
            if_neg (by rintro ⟨-, h | h⟩ <;> contradiction), ceedNums_getD]
          simp
    · rw [hb] at hk hj ih ⊢
      have hj0 : j = 0 := by
        have : j < 1 := hj
        omega
      subst hj0
      rw [store_boundary c t hk, (dt_seen c kind pre r t).2, ih, if_neg (by simp), if_neg (by simp), ceedNums_getD]
      simp

/-- Specification: `x` is the largest of the sums, over the evaluations `runs`, of the Courant numbers of each side of each of the
edges `is`, or 0. -/
def LargestSum (rows : ℕ → ℕ) (runs : List CeedRun) (is : List ℕ) (x : ℝ) : Prop :=
  0 ≤ x ∧ (∀ i ∈ is, ∀ j < rows i, (runs.map fun r : CeedRun => sideCourant r.dt (r.edge i) j).sum ≤ x) ∧
  (x = 0 ∨ ∃ i ∈ is, ∃ j < rows i, x = (runs.map fun r : CeedRun => sideCourant r.dt (r.edge i) j).sum)

/-- the largest entry of a list, or the number given -/
private theorem foldl_max_spec (l : List ℝ) (m : ℝ) :
    m ≤ l.foldl max m ∧ (∀ x ∈ l, x ≤ l.foldl max m) ∧ (l.foldl max m = m ∨ l.foldl max m ∈ l) := by
  induction l generalizing m with
  | nil => simp
  | cons a l ih =>
    rw [List.foldl_cons]
    obtain ⟨h1, h2, h3⟩ := ih (max m a)
    refine ⟨(le_max_left _ _).trans h1, ?_, ?_⟩
    · intro x hx
      rcases List.mem_cons.mp hx with rfl | hx
      · exact (le_max_right _ _).trans h1
      · exact h2 x hx
    · rcases h3 with h | h
      · rcases max_choice m a with hm | hm
        · left; rw [h, hm]
        · right; rw [h, hm]; exact List.mem_cons_self ..
      · exact Or.inr (List.mem_cons_of_mem _ h)

/-- the loop over edges -/
private theorem reported_spec (rows : ℕ → ℕ) (v : ℕ → ℕ → ℝ) (is : List ℕ) (m : ℝ) (hm : 0 ≤ m) :
    m ≤ is.foldl (fun m i => max m (((List.range (rows i)).map (v i)).foldl max 0)) m ∧
    (∀ i ∈ is, ∀ j < rows i, v i j ≤ is.foldl (fun m i => max m (((List.range (rows i)).map (v i)).foldl max 0)) m) ∧
    (is.foldl (fun m i => max m (((List.range (rows i)).map (v i)).foldl max 0)) m = m ∨
      ∃ i ∈ is, ∃ j < rows i, is.foldl (fun m i => max m (((List.range (rows i)).map (v i)).foldl max 0)) m = v i j) := by
  induction is generalizing m with
  | nil => simp
  | cons a is ih =>
    rw [List.foldl_cons]
    obtain ⟨g1, g2, g3⟩ := foldl_max_spec ((List.range (rows a)).map (v a)) 0
    obtain ⟨h1, h2, h3⟩ := ih (max m (((List.range (rows a)).map (v a)).foldl max 0)) (le_max_of_le_left hm)
    refine ⟨(le_max_left _ _).trans h1, ?_, ?_⟩
    · intro i hi j hj
      rcases List.mem_cons.mp hi with rfl | hi
      · exact (g2 _ (List.mem_map.mpr ⟨j, List.mem_range.mpr hj, rfl⟩)).trans ((le_max_right _ _).trans h1)
      · exact h2 i hi j hj
    · rcases h3 with h | ⟨i, hi, j, hj, h⟩
      · rw [h]
        rcases max_choice m (((List.range (rows a)).map (v a)).foldl max 0) with hc | hc
        · exact Or.inl hc
        · rw [hc]
          rcases g3 with g | g
          · left
            apply le_antisymm
            · rw [g]; exact hm
            · rw [← hc]; exact le_max_left _ _
          · obtain ⟨j, hj, hv⟩ := List.mem_map.mp g
            exact Or.inr ⟨a, List.mem_cons_self .., j, List.mem_range.mp hj, hv.symm⟩
      · exact Or.inr ⟨i, List.mem_cons_of_mem _ hi, j, hj, h⟩

/-- C79 (what is read back): after any number of evaluations of the right-hand side since the operators were created, the number read
back from the CEED operators is the largest of the **sums** over all these evaluations of the Courant numbers of each side of each edge
that counts: all edges with the first-order scheme and no hydrostatic reconstruction, otherwise the edges of boundaries. -/
theorem C79_sum_partial (c : CeedCfg) (kind : ℕ → SubOp) (n : ℕ) (runs : List CeedRun)
    (hk : ∀ i, i < n → (c.qf (kind i)).isSome) (hp : ∀ i, i < n → kind i = .interior ∨ ∃ t, kind i = .boundary t) :
    LargestSum (fun i => (kind i).courantRows) runs
      ((List.range n).filter fun i => ¬ (kind i = .interior ∧ (c.wb = .hr ∨ c.second = true)))
      (c.reported kind n runs courantReset).num := by
  obtain ⟨h1, h2, h3⟩ := reported_spec (fun i => (kind i).courantRows)
    (runs.foldl (c.run kind) (CeedDt.init, fun _ _ => 0)).2 (List.range n) 0 le_rfl
  have hx : (c.reported kind n runs courantReset).num = (List.range n).foldl (fun m i =>
      max m (((List.range (kind i).courantRows).map
        ((runs.foldl (c.run kind) (CeedDt.init, fun _ _ => 0)).2 i)).foldl max 0)) 0 := rfl
  rw [hx]
  refine ⟨h1, ?_, ?_⟩
  · intro i hi j hj
    obtain ⟨hi, hcond⟩ := List.mem_filter.mp hi
    have hin : i < n := List.mem_range.mp hi
    have := h2 i hi j hj
    rw [read_back c kind runs i j (hk i hin) (hp i hin) hj, if_neg (of_decide_eq_true hcond)] at this
    exact this
  · rcases h3 with h | ⟨i, hi, j, hj, h⟩
    · exact Or.inl h
    · have hin : i < n := List.mem_range.mp hi
      rw [read_back c kind runs i j (hk i hin) (hp i hin) hj] at h
      by_cases hcond : kind i = .interior ∧ (c.wb = .hr ∨ c.second = true)
      · rw [if_pos hcond] at h
        exact Or.inl h
      · rw [if_neg hcond] at h
        exact Or.inr ⟨i, List.mem_filter.mpr ⟨hi, decide_eq_true hcond⟩, j, hj, h⟩

private theorem largest_of_sum (kind : ℕ → SubOp) (n : ℕ) (r : CeedRun) (is : List ℕ) (his : ∀ i ∈ is, i < n)
    (hp : Placed kind r.edge n) (x : ℝ) (h : LargestSum (fun i => (kind i).courantRows) [r] is x) :
    LargestCourant r.dt (is.map r.edge) x := by
  obtain ⟨h0, h1, h2⟩ := h
  refine ⟨?_, ?_⟩
  · intro e he hw
    obtain ⟨i, hi, rfl⟩ := List.mem_map.mp he
    have hrow : 0 < (kind i).courantRows := by cases kind i <;> simp [SubOp.courantRows]
    refine ⟨?_, ?_⟩
    · have := h1 i hi 0 hrow
      simpa [sideCourant, hw] using this
    · intro a cc hr
      rcases hp i (his i hi) with ⟨hin, -⟩ | ⟨t, -, hn⟩
      · have := h1 i hi 1 (by show 1 < (kind i).courantRows; rw [hin]; simp [SubOp.courantRows])
        simpa [sideCourant, hw, hr] using this
      · rw [hn] at hr; simp at hr
  · rcases h2 with h | ⟨i, hi, j, hj, h⟩
    · exact Or.inl h
    · replace hj : j < (kind i).courantRows := hj
      rw [List.map_cons, List.map_nil, List.sum_cons, List.sum_nil, add_zero] at h
      unfold sideCourant at h
      by_cases hw : (r.edge i).wet = true
      · rw [if_pos hw] at h
        right
        refine ⟨r.edge i, List.mem_map.mpr ⟨i, hi, rfl⟩, hw, ?_⟩
        rcases j with _ | _ | j
        · exact Or.inl h
        · rcases hr : (r.edge i).right with _ | ⟨a, cc⟩
          · rcases hp i (his i hi) with ⟨-, hne⟩ | ⟨t, ht, -⟩
            · exact absurd hr hne
            · rw [ht] at hj; simp [SubOp.courantRows] at hj
          · rw [hr] at h
            exact Or.inr ⟨a, cc, rfl, h⟩
        · have : (kind i).courantRows ≤ 2 := by cases kind i <;> simp [SubOp.courantRows]
          omega
      · rw [if_neg hw] at h
        exact Or.inl h

/-- C79: with the first-order scheme and no hydrostatic reconstruction, after the first evaluation of the right-hand side the Courant
number read back from the CEED operators is the largest one of the wet edges, interior edges and boundary edges of all types, for
the state and the time step of that evaluation. (Missing: later evaluations, `C79_accumulates_violated`.) -/
theorem C79_number_partial (c : CeedCfg) (hw : c.wb ≠ .hr) (h2 : c.second = false) (kind : ℕ → SubOp) (n : ℕ)
    (r : CeedRun) (hk : ∀ i, i < n → (c.qf (kind i)).isSome) (hp : Placed kind r.edge n) :
    LargestCourant r.dt ((List.range n).map r.edge) (c.reported kind n [r] courantReset).num := by
  have h := C79_sum_partial c kind n [r] hk fun i hi => (hp i hi).imp And.left fun ⟨t, ht, _⟩ => ⟨t, ht⟩
  have hf : ((List.range n).filter fun i => ¬ (kind i = .interior ∧ (c.wb = .hr ∨ c.second = true))) = List.range n := by
    rw [List.filter_eq_self]
    intro i _
    simp [hw, h2]
  rw [hf] at h
  exact largest_of_sum kind n r _ (fun i hi => List.mem_range.mp hi) hp _ h

/-- C79 (the rest): with hydrostatic reconstruction or the second-order scheme the number read back after the first evaluation is the
largest one of the **boundary** edges; interior edges do not count. -/
theorem C79_boundary_only_partial (c : CeedCfg) (hb : c.wb = .hr ∨ c.second = true) (kind : ℕ → SubOp) (n : ℕ)
    (r : CeedRun) (hk : ∀ i, i < n → (c.qf (kind i)).isSome) (hp : Placed kind r.edge n) :
    LargestCourant r.dt (((List.range n).filter (fun i => kind i ≠ .interior)).map r.edge)
      (c.reported kind n [r] courantReset).num := by
  have h := C79_sum_partial c kind n [r] hk fun i hi => (hp i hi).imp And.left fun ⟨t, ht, _⟩ => ⟨t, ht⟩
  have hf : ((List.range n).filter fun i => ¬ (kind i = .interior ∧ (c.wb = .hr ∨ c.second = true))) =
      (List.range n).filter fun i => kind i ≠ .interior := by
    apply List.filter_congr
    intro i _
    simp [hb]
  rw [hf] at h
  exact largest_of_sum kind n r _ (fun i hi => List.mem_range.mp (List.mem_filter.mp hi).1) hp _ h

/-- one interior edge with wave speed `N` between cells of area 1 -/
noncomputable def exWave (N : ℝ) : CeedRun := ⟨1, fun _ => ⟨true, N, 1, 1, 10, some (1, 11), 101⟩, fun _ _ _ => 0⟩

/-- C79 is violated with hydrostatic reconstruction and with the second-order scheme: however large the Courant number
`N` of an interior edge, the number reported is 0, and the adaptive time step grows by the largest factor allowed
instead of being reduced. -/
theorem C79_violated (c : CeedCfg) (hb : c.wb = .hr ∨ c.second = true) (hq : (c.qf .interior).isSome)
    (pre : List CeedRun) (N : ℝ) (a : AdaptiveCfg) (ha : 0 < a.target) (interval : ℝ) :
    cellCourant ((exWave N).edge 0).amax ((exWave N).edge 0).len ((exWave N).edge 0).areaL (exWave N).dt = N ∧
    (c.reported (fun _ => .interior) 1 (pre ++ [exWave N]) courantReset).num = 0 ∧
    adaptDt a interval (exWave N).dt (c.reported (fun _ => .interior) 1 (pre ++ [exWave N]) courantReset).num =
      clampTo interval a.maxInc := by
  have h0 : (c.reported (fun _ => .interior) 1 (pre ++ [exWave N]) courantReset).num = 0 := by
    obtain ⟨-, -, h | ⟨i, hi, -⟩⟩ := C79_sum_partial c (fun _ => .interior) 1 (pre ++ [exWave N]) (fun _ _ => hq)
      (fun _ _ => Or.inl rfl)
    · exact h
    · simp [hb] at hi
  refine ⟨by norm_num [cellCourant, exWave], h0, ?_⟩
  rw [h0]
  simp [adaptDt, ha, increaseFactor, exWave]

/-- C79 is violated with every scheme from the second evaluation on: the vectors `courant_number` are passive outputs of operators that
are applied by `CeedOperatorApplyAdd` and are never set to 0 again, so the numbers of all evaluations since the operators were created
are added up. With an interior edge of constant Courant number `N`, the number reported after `k` evaluations is `k * N`; however small
`N` is compared to the target, after enough evaluations the adaptive time step is reduced instead of increased. -/
theorem C79_accumulates_violated (c : CeedCfg) (hw : c.wb ≠ .hr) (h2 : c.second = false) (hq : (c.qf .interior).isSome)
    (N : ℝ) (hN : 0 < N) :
    (∀ k : ℕ, (c.reported (fun _ => .interior) 1 (List.replicate k (exWave N)) courantReset).num = k * N) ∧
    (¬ LargestCourant (exWave N).dt [(exWave N).edge 0]
      (c.reported (fun _ => .interior) 1 [exWave N, exWave N] courantReset).num) ∧
    ∀ (a : AdaptiveCfg) (interval : ℝ), 0 < a.target → ∃ k : ℕ,
      adaptDt a interval (exWave N).dt
        (c.reported (fun _ => .interior) 1 (List.replicate k (exWave N)) courantReset).num < (exWave N).dt := by
  have hside : ∀ j < 2, sideCourant (exWave N).dt ((exWave N).edge 0) j = N := by
    intro j hj
    interval_cases j <;> simp [sideCourant, exWave, cellCourant]
  have hk : ∀ k : ℕ, (c.reported (fun _ => .interior) 1 (List.replicate k (exWave N)) courantReset).num = k * N := by
    intro k
    obtain ⟨-, h1, h2'⟩ := C79_sum_partial c (fun _ => .interior) 1 (List.replicate k (exWave N)) (fun _ _ => hq)
      (fun _ _ => Or.inl rfl)
    have hmem : 0 ∈ (List.range 1).filter fun _ => ¬ (SubOp.interior = .interior ∧ (c.wb = .hr ∨ c.second = true)) := by
      simp [hw, h2]
    have hsum : ∀ j < 2, ((List.replicate k (exWave N)).map fun r : CeedRun => sideCourant r.dt (r.edge 0) j).sum = k * N := by
      intro j hj
      rw [List.map_replicate, List.sum_replicate, hside j hj, nsmul_eq_mul]
    rcases h2' with h | ⟨i, hi, j, hj, h⟩
    · apply le_antisymm
      · rw [h]; positivity
      · have := h1 0 hmem 0 (by norm_num [SubOp.courantRows])
        rwa [hsum 0 (by norm_num)] at this
    · have hi0 : i = 0 := by simpa using (List.mem_filter.mp hi).1
      subst hi0
      rw [h, hsum j hj]
  refine ⟨hk, ?_, ?_⟩
  · rintro ⟨-, h⟩
    have h' : (c.reported (fun _ => .interior) 1 [exWave N, exWave N] courantReset).num = (2 : ℕ) * N := hk 2
    rw [h'] at h
    simp [exWave, cellCourant] at h
    rcases h with h | h
    · linarith
    · linarith
  · intro a interval ha
    obtain ⟨k, hk'⟩ := exists_nat_gt (a.target / N)
    refine ⟨k, ?_⟩
    have hlt : a.target < k * N := (div_lt_iff₀ hN).mp hk'
    rw [hk k]
    unfold adaptDt
    rw [if_neg (by linarith)]
    have : a.target / (k * N) < 1 := (div_lt_one (by linarith)).mpr hlt
    simpa [exWave] using this

example : exCfgHR.wb = .hr ∧ (exCfgHR.qf .interior).isSome ∧ exCfg2.second = true ∧ (exCfg2.qf .interior).isSome := by
  decide
example : ∃ (kind : ℕ → SubOp) (r : CeedRun), exCfg.wb ≠ .hr ∧ exCfg.second = false ∧
    (∀ i, i < 2 → (exCfg.qf (kind i)).isSome) ∧ Placed kind r.edge 2 ∧ 0 ≤ r.dt ∧ (∀ i, i < 2 → (r.edge i).Ok) ∧
    (r.edge 0).wet = true ∧ (r.edge 1).wet = true := by
  refine ⟨fun i => if i = 0 then .interior else .boundary .reflecting,
    ⟨1, fun i => if i = 0 then ⟨true, 3, 1, 1, 10, some (1, 11), 101⟩ else ⟨true, 2, 1, 1, 10, none, 102⟩,
      fun _ _ _ => 0⟩, by decide, rfl, ?_, ?_, by norm_num, ?_, rfl, rfl⟩
  · intro i hi
    interval_cases i <;> decide
  · intro i hi
    interval_cases i
    · exact Or.inl ⟨rfl, by simp⟩
    · exact Or.inr ⟨.reflecting, rfl, rfl⟩
  · intro i hi
    interval_cases i
    · norm_num [CEdge.Ok]
    · refine ⟨by norm_num, by norm_num, by norm_num, fun a c h => ?_⟩
      simp at h

/-! ### C80 -/

/-- C80: in every configuration that passes the check, the arrays for the fluxes and for the Roe solver have room for
all tracers; the arrays for the states and for the erosion and deposition rates do exactly if the tracers, salinity
and heat included, are not more than the sediment classes allowed. -/
theorem C80_arrays_partial (maxC : ℕ) (c : CeedCfg) (h : c.classesAllowed maxC = true) :
    (∀ k : KArray, k ≠ .hci → k ≠ .rates → k.used c.tracers ≤ k.size maxC) ∧
    ((∀ k : KArray, k.used c.tracers ≤ k.size maxC) ↔ c.tracers ≤ maxC) := by
  have hc : c.classes ≤ maxC := by simpa [CeedCfg.classesAllowed] using h
  have ht : c.tracers ≤ maxC + 2 := by
    unfold CeedCfg.tracers
    cases c.salinity <;> cases c.heat <;> simp <;> omega
  refine ⟨fun k h1 h2 => ?_, fun H => H .hci, fun H k => ?_⟩
  · cases k <;> simp [KArray.used, KArray.size] at * <;> omega
  · cases k <;> simp [KArray.used, KArray.size] <;> omega

/-- C80: without salinity and heat, no array is overrun. -/
theorem C80_sediment_only (maxC : ℕ) (c : CeedCfg) (h : c.classesAllowed maxC = true) (hs : c.salinity = false)
    (hh : c.heat = false) (k : KArray) : k.used c.tracers ≤ k.size maxC := by
  refine (C80_arrays_partial maxC c h).2.mpr ?_ k
  have hc : c.classes ≤ maxC := by simpa [CeedCfg.classesAllowed] using h
  simpa [CeedCfg.tracers, hs, hh] using hc

/-- C80 is violated: with the largest number of sediment classes allowed and salinity (or heat), the configuration
passes the check, but the kernels write one entry beyond the end of the arrays of concentrations and of rates. -/
theorem C80_violated (maxC : ℕ) (wb : WellBalancing) (src : SourceMethod) :
    let c : CeedCfg := ⟨maxC, true, false, wb, src, .roe, false⟩
    c.classesAllowed maxC = true ∧ (c.qf .interior).isSome ∧
    KArray.hci.size maxC < KArray.hci.used c.tracers ∧ KArray.rates.size maxC < KArray.rates.used c.tracers := by
  refine ⟨by simp [CeedCfg.classesAllowed], ?_, by simp [KArray.size, KArray.used, CeedCfg.tracers],
    by simp [KArray.size, KArray.used, CeedCfg.tracers]⟩
  cases wb <;> simp [CeedCfg.qf, CeedCfg.tracers]

example : exCfgSed.classesAllowed 5 = true ∧ exCfgSed.tracers = 3 ∧ exCfgSed.tracers ≤ 5 := by decide
example : (⟨5, false, false, .none, .semiImplicit, .roe, false⟩ : CeedCfg).classesAllowed 5 = true := by decide

end RDy
