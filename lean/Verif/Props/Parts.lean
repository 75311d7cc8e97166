import Verif.Model.Parts
import Mathlib.Algebra.BigOperators.Group.List.Basic

/-!
C125: on how many processes a run starts. Specification: a process takes part with whatever part of the mesh it holds; the only thing a distribution must provide is a cell for every process.
-/

namespace RDy

/-! ### Specification -/

/-- What PETSc guarantees of the part of a process: it holds cells of other processes only around cells of its own, and a label names only sets of which it holds something. -/
structure Part.Wf (p : Part) : Prop where
  around : p.cellSets ≠ [] → 0 < p.owned
  nonempty : ∀ s ∈ p.cellSets, s ≠ []

/-- Every cell of the process belongs to a cell set. -/
def Part.Covered (p : Part) : Prop := 0 < p.owned → p.cellSets ≠ []

/-- The process has an edge of the domain boundary: one of its own cells has an edge on the boundary, or it holds edges of a face set. -/
def Part.Touches (p : Part) : Prop := (∃ e ∈ p.boundaryEdges, e < p.mesh.numEdges ∧ edgeValid p.mesh e = true) ∨ (p.boundaryEdges ≠ [] ∧ p.faceSets ≠ [])

/-! ### Boundaries -/

theorem foldl_max_pos (l : List ℕ) (a : ℕ) : 0 < l.foldl max a ↔ 0 < a ∨ ∃ x ∈ l, 0 < x := by
  induction l generalizing a with
  | nil => simp
  | cons x l ih =>
    rw [List.foldl_cons, ih]
    simp only [List.mem_cons, exists_eq_or_imp]
    constructor
    · rintro (h | h)
      · rcases lt_max_iff.mp h with h | h
        · exact Or.inl h
        · exact Or.inr (Or.inl h)
      · exact Or.inr (Or.inr h)
    · rintro (h | h | h)
      · exact Or.inl (lt_max_of_lt_left h)
      · exact Or.inl (lt_max_of_lt_right h)
      · exact Or.inr h

theorem valid_mem_boundary {m : EdgeMesh} {b : List ℕ} {e : ℕ} (h : e ∈ b) (hv : edgeValid m e = true) : e ∈ validBoundaryEdges m b := by
  unfold validBoundaryEdges
  split
  · exact h
  · simp only [isDiff, List.mem_filter, h, true_and, invalidEdges]
    simp [hv]

theorem touches_numBoundaries {p : Part} (h : p.Touches) : 0 < p.numBoundaries := by
  unfold Part.numBoundaries
  rcases h with ⟨e, h1, _, h3⟩ | ⟨h1, h2⟩
  · have hb : p.boundaryEdges ≠ [] := List.ne_nil_of_mem h1
    rw [if_neg hb]
    by_cases hf : p.faceSets = []
    · have h4 : (assignLoop p.mesh p.boundaryEdges p.faceSets).2 ≠ [] := by
        rw [hf]
        exact List.ne_nil_of_mem (valid_mem_boundary h1 h3)
      rw [if_neg h4]; omega
    · have := List.length_pos_iff.mpr hf
      omega
  · rw [if_neg h1]
    have := List.length_pos_iff.mpr h2
    omega

/-- C125 (boundaries). The check that the grid has boundaries is passed as soon as one process, whichever, has an edge of the domain boundary; the others need none. -/
theorem C125_boundaries {ps : List Part} {p : Part} (hp : p ∈ ps) (h : p.Touches) : boundariesFound ps = true := by
  unfold boundariesFound
  rw [decide_eq_true_iff, foldl_max_pos]
  exact Or.inr ⟨p.numBoundaries, List.mem_map_of_mem hp, touches_numBoundaries h⟩

/-! ### Starting -/

theorem start_ok_iff (p : Part) : p.start = .ok 3 ↔ p.cellSets ≠ [] ∧ 0 < p.owned := by
  unfold Part.start Part.createOp
  by_cases h : p.cellSets.length > 0
  · rw [if_pos h]
    have hne : p.cellSets ≠ [] := List.length_pos_iff.mp h
    dsimp only
    unfold sourceDof
    by_cases h0 : p.owned = 0
    · rw [if_pos h0]; simp [h0]
    · rw [if_neg h0, Nat.mul_div_cancel _ (Nat.pos_of_ne_zero h0), if_pos rfl]
      simp [hne, Nat.pos_of_ne_zero h0]
  · rw [if_neg h]
    have hne : p.cellSets = [] := by
      by_contra hc
      exact h (List.length_pos_iff.mpr hc)
    simp [hne]

theorem start_cases (p : Part) : p.start = (if p.cellSets = [] then .error else if p.owned = 0 then .ub else .ok 3) := by
  unfold Part.start Part.createOp
  by_cases h : p.cellSets = []
  · rw [if_pos h, if_neg (by simp [h])]
  · rw [if_neg h, if_pos (List.length_pos_iff.mpr h)]
    dsimp only
    unfold sourceDof
    by_cases h0 : p.owned = 0
    · rw [if_pos h0, if_pos h0]
    · rw [if_neg h0, if_neg h0, Nat.mul_div_cancel _ (Nat.pos_of_ne_zero h0), if_pos rfl]

/-- C125 (division). A process divides by the number of its cells only if it has some, unless its label names a cell set while it owns no cell. -/
theorem C125_division (p : Part) : p.start = .ub ↔ p.cellSets ≠ [] ∧ p.owned = 0 := by
  rw [start_cases]
  by_cases h : p.cellSets = []
  · simp [h]
  · by_cases h0 : p.owned = 0 <;> simp [h, h0]

example : (⟨0, [[0]], ⟨0, fun _ => (0, none), fun _ => false⟩, [], []⟩ : Part).start = .ub := (C125_division _).mpr ⟨by simp, rfl⟩

open Classical in
theorem startParts_cases (ps : List Part) : startParts ps =
    if boundariesFound ps = false then .error
    else if ∃ p ∈ ps, p.start = .ub then .ub
    else if ∃ p ∈ ps, p.start = .error then .error
    else .ok () := by
  unfold startParts
  have e1 : (ps.any fun p => p.start.isUndefined) = decide (∃ p ∈ ps, p.start = .ub) := by
    rw [Bool.eq_iff_iff, List.any_eq_true, decide_eq_true_iff]
    refine exists_congr fun p => and_congr_right fun _ => ?_
    cases p.start <;> simp [Res.isUndefined]
  have e2 : (ps.any fun p => p.start.isRefused) = decide (∃ p ∈ ps, p.start = .error) := by
    rw [Bool.eq_iff_iff, List.any_eq_true, decide_eq_true_iff]
    refine exists_congr fun p => and_congr_right fun _ => ?_
    cases p.start <;> simp [Res.isRefused]
  rw [e1, e2]
  simp only [decide_eq_true_iff]

/-- C125 (never undefined). However the mesh is distributed, no process divides by zero on the way to the first step. -/
theorem C125_defined {ps : List Part} (h : ∀ p ∈ ps, p.Wf) : startParts ps ≠ .ub := by
  rw [startParts_cases]
  have hn : ¬ ∃ p ∈ ps, p.start = .ub := by
    rintro ⟨p, hp, hu⟩
    obtain ⟨h1, h2⟩ := (C125_division p).mp hu
    have := (h p hp).around h1
    omega
  rw [if_neg hn]
  split
  · simp
  · split <;> simp

/-- C125 (decision). If every cell is in a cell set and some process has an edge of the domain boundary, the run starts exactly if every process owns a cell, whatever else it
holds: processes in the interior, without any edge of the boundary, take part. -/
theorem C125_starts_iff_partial {ps : List Part} (h : ∀ p ∈ ps, p.Wf) (hc : ∀ p ∈ ps, p.Covered) (hb : ∃ p ∈ ps, p.Touches) :
    startParts ps = .ok () ↔ ∀ p ∈ ps, 0 < p.owned := by
  obtain ⟨q, hq, hqt⟩ := hb
  rw [startParts_cases, if_neg (by rw [C125_boundaries hq hqt]; decide)]
  have hn : ¬ ∃ p ∈ ps, p.start = .ub := by
    rintro ⟨p, hp, hu⟩
    obtain ⟨h1, h2⟩ := (C125_division p).mp hu
    have := (h p hp).around h1
    omega
  rw [if_neg hn]
  constructor
  · intro hok p hp
    by_contra h0
    have hs : p.cellSets = [] := by
      by_contra hne
      exact h0 ((h p hp).around hne)
    have he : ∃ p ∈ ps, p.start = .error := ⟨p, hp, by rw [start_cases, if_pos hs]⟩
    rw [if_pos he] at hok
    cases hok
  · intro hall
    rw [if_neg]
    rintro ⟨p, hp, he⟩
    rw [start_cases, if_neg (hc p hp (hall p hp)), if_neg (by have := hall p hp; omega)] at he
    cases he

/-- C125 (disagreement). A run on more processes than the mesh has cells is refused: some process has no region. -/
theorem C125_too_many_processes_violated {ps : List Part} (h : ∀ p ∈ ps, p.Wf) (hn : (ps.map Part.owned).sum < ps.length) : startParts ps = .error := by
  have hex : ∃ p ∈ ps, p.owned = 0 := by
    by_contra hc
    have hall : ∀ x ∈ ps.map Part.owned, 1 ≤ x := by
      intro x hx
      obtain ⟨p, hp, rfl⟩ := List.mem_map.mp hx
      by_contra h0
      exact hc ⟨p, hp, by omega⟩
    have := List.length_le_sum_of_one_le (ps.map Part.owned) hall
    simp at this
    omega
  obtain ⟨p, hp, h0⟩ := hex
  rw [startParts_cases]
  have hu : ¬ ∃ p ∈ ps, p.start = .ub := by
    rintro ⟨q, hq, hu⟩
    obtain ⟨h1, h2⟩ := (C125_division q).mp hu
    have := (h q hq).around h1
    omega
  have hs : p.cellSets = [] := by
    by_contra hne
    have := (h p hp).around hne
    omega
  have he : ∃ p ∈ ps, p.start = .error := ⟨p, hp, by rw [start_cases, if_pos hs]⟩
  rw [if_neg hu, if_pos he]
  split <;> rfl

/-! ### Concrete parts -/

/-- A square that is a whole mesh, in one cell set, without face sets. -/
def exAlone : Part := ⟨1, [[0]], ⟨4, fun _ => (0, none), fun _ => true⟩, [0, 1, 2, 3], []⟩

/-- The middle of a grid of 3 × 3 squares, as a process sees it that owns it (cell 0) with its 4 neighbours: edges 0 to 3 are its own, the 12 others belong to the neighbours, which are not
owned. -/
def exMiddle : Part :=
  ⟨1, [[0, 1, 2, 3, 4]], ⟨16, fun e => if e < 4 then (0, some (e + 1)) else (1 + (e - 4) / 3, none), fun c => c == 0⟩, (List.range 16).filter (4 ≤ ·), []⟩

/-- A process without cells. -/
def exNothing : Part := ⟨0, [], ⟨0, fun _ => (0, none), fun _ => false⟩, [], []⟩

/-- A process whose only cell is in no cell set. -/
def exStray : Part := ⟨1, [], ⟨4, fun e => (0, if e = 0 then some 1 else none), fun c => c == 0⟩, [1, 2, 3], []⟩

theorem exAlone_wf : exAlone.Wf := ⟨fun _ => by decide, by simp [exAlone]⟩
theorem exMiddle_wf : exMiddle.Wf := ⟨fun _ => by decide, by simp [exMiddle]⟩
theorem exNothing_wf : exNothing.Wf := ⟨fun h => absurd rfl h, by simp [exNothing]⟩
theorem exAlone_touches : exAlone.Touches := Or.inl ⟨0, by simp [exAlone], by simp [exAlone], rfl⟩

/-- the middle has no boundary at all -/
example : exMiddle.numBoundaries = 0 := by decide +kernel

example : boundariesFound [exMiddle, exAlone] = true := C125_boundaries (p := exAlone) (by simp) exAlone_touches

/-- A process in the interior takes part. -/
example : startParts [exMiddle, exAlone] = .ok () := by
  refine (C125_starts_iff_partial ?_ ?_ ⟨exAlone, by simp, exAlone_touches⟩).mpr ?_
  · intro p hp; simp at hp; rcases hp with rfl | rfl
    · exact exMiddle_wf
    · exact exAlone_wf
  · intro p hp; simp at hp; rcases hp with rfl | rfl <;> intro _ <;> simp [exMiddle, exAlone]
  · intro p hp; simp at hp; rcases hp with rfl | rfl <;> decide

example : startParts [exMiddle, exNothing] ≠ .ub := C125_defined (by
  intro p hp; simp at hp; rcases hp with rfl | rfl
  · exact exMiddle_wf
  · exact exNothing_wf)

/-- One cell on two processes. -/
example : startParts [exAlone, exNothing] = .error := C125_too_many_processes_violated (by
  intro p hp; simp at hp; rcases hp with rfl | rfl
  · exact exAlone_wf
  · exact exNothing_wf) (by decide)

/-- C125 (disagreement). With cells in no cell set, whether a run starts depends on the distribution: two cells, one of them in no set, start on one process, and on two processes they are
refused although each process owns a cell. -/
theorem C125_stray_violated : ∃ whole left right : Part, whole.Wf ∧ left.Wf ∧ right.Wf ∧ whole.owned = left.owned + right.owned ∧ 0 < left.owned ∧ 0 < right.owned ∧
    startParts [whole] = .ok () ∧ startParts [left, right] = .error := by
  refine ⟨⟨2, [[0]], ⟨7, fun e => if e = 0 then (0, some 1) else (if e < 4 then 0 else 1, none), fun _ => true⟩, [1, 2, 3, 4, 5, 6], []⟩,
    ⟨1, [[0]], ⟨7, fun e => if e = 0 then (0, some 1) else (if e < 4 then 0 else 1, none), fun c => c == 0⟩, [1, 2, 3, 4, 5, 6], []⟩, exStray,
    ⟨fun _ => by decide, by simp⟩, ⟨fun _ => by decide, by simp⟩, ⟨fun h => absurd rfl h, by simp [exStray]⟩, rfl, by decide, by decide, ?_, ?_⟩
  · rfl
  · rfl

end RDy
