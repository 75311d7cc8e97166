import Verif.Model.Courant
import Mathlib.Data.List.Perm.Basic
import Mathlib.Tactic.Linarith
import Mathlib.Tactic.Ring
import Mathlib.Tactic.FieldSimp
import Mathlib.Tactic.NormNum

/-!
# Courant-number diagnostics (C35)
-/

namespace RDy

/-- Specification: the Courant number of cell `c` of area `a` with respect to an edge. -/
noncomputable def cellCourant (amax len a dt : ℝ) : ℝ := amax * len / a * dt

/-- Specification: a diagnostics record tells the truth about a set of edges: its number is an upper
bound for the wet edges, and, unless it is still the reset value, it is the number of a wet edge with
the recorded ID, computed with the area of the recorded cell. -/
def CourantTrue (dt : ℝ) (es : List CEdge) (d : Courant) : Prop :=
  (∀ e ∈ es, e.wet = true → cellCourant e.amax e.len e.areaL dt ≤ d.num ∧
    ∀ a c, e.right = some (a, c) → cellCourant e.amax e.len a dt ≤ d.num) ∧
  (d = courantReset ∨ ∃ e ∈ es, e.wet = true ∧ d.edge = e.gid ∧
    ((d.cell = e.cellL ∧ d.num = cellCourant e.amax e.len e.areaL dt) ∨
     ∃ a c, e.right = some (a, c) ∧ d.cell = c ∧ d.num = cellCourant e.amax e.len a dt))

/-- Physically meaningful edges: positive areas, non-negative length and wave speed. -/
def CEdge.Ok (e : CEdge) : Prop :=
  0 < e.areaL ∧ 0 ≤ e.len ∧ 0 ≤ e.amax ∧ ∀ a c, e.right = some (a, c) → 0 < a

private theorem cnum_bounds (e : CEdge) (dt : ℝ) (hdt : 0 ≤ dt) (h : e.Ok) :
    cellCourant e.amax e.len e.areaL dt ≤ e.cnum dt ∧
    (∀ a c, e.right = some (a, c) → cellCourant e.amax e.len a dt ≤ e.cnum dt) ∧
    ((e.cell = e.cellL ∧ e.cnum dt = cellCourant e.amax e.len e.areaL dt) ∨
     ∃ a c, e.right = some (a, c) ∧ e.cell = c ∧ e.cnum dt = cellCourant e.amax e.len a dt) := by
  obtain ⟨h1, h2, h3, h4⟩ := h
  have hn : 0 ≤ e.amax * e.len := mul_nonneg h3 h2
  unfold CEdge.cnum CEdge.cell cellCourant
  cases hr : e.right with
  | none => simp
  | some ac =>
    obtain ⟨a, c⟩ := ac
    have ha := h4 a c hr
    have hmin : 0 < min e.areaL a := lt_min h1 ha
    refine ⟨?_, ?_, ?_⟩
    · exact mul_le_mul_of_nonneg_right
        (div_le_div_of_nonneg_left hn hmin (min_le_left _ _)) hdt
    · intro a' c' h
      simp only [Option.some.injEq, Prod.mk.injEq] at h
      obtain ⟨rfl, rfl⟩ := h
      exact mul_le_mul_of_nonneg_right
        (div_le_div_of_nonneg_left hn hmin (min_le_right _ _)) hdt
    · simp only
      by_cases hlt : e.areaL < a
      · left; simp [hlt, min_eq_left hlt.le]
      · right; exact ⟨a, c, rfl, by simp [hlt], by rw [min_eq_right (not_lt.1 hlt)]⟩

private theorem visit_true (dt : ℝ) (hdt : 0 ≤ dt) (es : List CEdge) (e : CEdge) (d : Courant)
    (he : e.Ok) (h : CourantTrue dt es d) : CourantTrue dt (es ++ [e]) (courantVisit dt d e e.gid) := by
  obtain ⟨h1, h2⟩ := h
  obtain ⟨b1, b2, b3⟩ := cnum_bounds e dt hdt he
  unfold courantVisit
  have old : (d = courantReset ∨ ∃ e' ∈ es ++ [e], e'.wet = true ∧ d.edge = e'.gid ∧
      ((d.cell = e'.cellL ∧ d.num = cellCourant e'.amax e'.len e'.areaL dt) ∨
       ∃ a c, e'.right = some (a, c) ∧ d.cell = c ∧ d.num = cellCourant e'.amax e'.len a dt)) := by
    rcases h2 with h2 | ⟨e', he', hw⟩
    · exact Or.inl h2
    · exact Or.inr ⟨e', List.mem_append_left _ he', hw⟩
  by_cases hw : e.wet = true
  · rw [if_pos hw]
    by_cases hg : e.cnum dt > d.num
    · rw [if_pos hg]
      refine ⟨?_, Or.inr ⟨e, by simp, hw, rfl, b3⟩⟩
      intro e' he' hw'
      rcases List.mem_append.1 he' with he' | he'
      · obtain ⟨c1, c2⟩ := h1 e' he' hw'
        exact ⟨c1.trans hg.le, fun a c h => (c2 a c h).trans hg.le⟩
      · rw [List.mem_singleton] at he'
        subst he'
        exact ⟨b1, b2⟩
    · rw [if_neg hg]
      refine ⟨?_, old⟩
      intro e' he' hw'
      rcases List.mem_append.1 he' with he' | he'
      · exact h1 e' he' hw'
      · rw [List.mem_singleton] at he'
        subst he'
        exact ⟨b1.trans (not_lt.1 hg), fun a c h => (b2 a c h).trans (not_lt.1 hg)⟩
  · rw [if_neg hw]
    refine ⟨?_, old⟩
    intro e' he' hw'
    rcases List.mem_append.1 he' with he' | he'
    · exact h1 e' he' hw'
    · rw [List.mem_singleton] at he'
      subst he'
      exact absurd hw' hw

/-- C35 (one process, PETSc, flow): after the flux loops the recorded maximum is an upper bound for
the Courant numbers of all cells next to wet edges, and it is attained by the recorded edge and
cell. -/
theorem C35_local (dt : ℝ) (hdt : 0 ≤ dt) (es : List CEdge) (hes : ∀ e ∈ es, e.Ok) :
    CourantTrue dt es (courantLoop dt courantReset es) := by
  suffices H : ∀ (rest done : List CEdge) (d : Courant), (∀ e ∈ rest, e.Ok) → CourantTrue dt done d →
      CourantTrue dt (done ++ rest) (courantLoop dt d rest) by
    simpa using H es [] courantReset hes ⟨by simp, Or.inl rfl⟩
  intro rest
  induction rest with
  | nil => intro done d _ h; simpa [courantLoop] using h
  | cons e rest ih =>
    intro done d hok h
    have := ih (done ++ [e]) _ (fun e' he' => hok e' (List.mem_cons_of_mem _ he'))
      (visit_true dt hdt done e d (hok e (List.mem_cons_self ..)) h)
    simpa [courantLoop] using this

/-- An interior edge between cells of areas 2 and 1, and a dry boundary edge. -/
example : ∀ e ∈ [(⟨true, 3, 1, 2, 10, some (1, 11), 5⟩ : CEdge), ⟨false, 9, 1, 1, 12, none, 6⟩],
    e.Ok := by
  intro e he
  simp only [List.mem_cons, List.not_mem_nil, or_false] at he
  rcases he with rfl | rfl
  · refine ⟨by norm_num, by norm_num, by norm_num, ?_⟩
    intro a c h; simp at h; linarith [h.1]
  · exact ⟨by norm_num, by norm_num, by norm_num, fun a c h => by simp at h⟩

private theorem op_max (a b : Courant) :
    (courantOp a b).num = max a.num b.num ∧ (courantOp a b = a ∨ courantOp a b = b) := by
  unfold courantOp
  split
  · rename_i h; exact ⟨(max_eq_left (le_of_lt h)).symm, Or.inl rfl⟩
  · rename_i h; exact ⟨(max_eq_right (not_lt.1 h)).symm, Or.inr rfl⟩

private theorem tree_spec (T : RedTree) :
    T.eval ∈ T.leaves ∧ ∀ d ∈ T.leaves, d.num ≤ T.eval.num := by
  induction T with
  | leaf d => simp [RedTree.eval, RedTree.leaves]
  | node l r ihl ihr =>
    obtain ⟨h1, h2⟩ := op_max l.eval r.eval
    simp only [RedTree.eval, RedTree.leaves, List.mem_append]
    constructor
    · rcases h2 with h2 | h2
      · rw [h2]; exact Or.inl ihl.1
      · rw [h2]; exact Or.inr ihr.1
    · rintro d (hd | hd)
      · rw [h1]; exact (ihl.2 d hd).trans (le_max_left _ _)
      · rw [h1]; exact (ihr.2 d hd).trans (le_max_right _ _)

/-- C35 (reduction): whatever the order in which the processes' records are combined, the result is
one of them (so its edge and cell still belong to its number), no process has a larger number, and the
number is the same for every order. -/
theorem C35_reduction (T : RedTree) :
    T.eval ∈ T.leaves ∧ (∀ d ∈ T.leaves, d.num ≤ T.eval.num) ∧
    ∀ T' : RedTree, T'.leaves.Perm T.leaves → T'.eval.num = T.eval.num := by
  refine ⟨(tree_spec T).1, (tree_spec T).2, ?_⟩
  intro T' hp
  apply le_antisymm
  · exact (tree_spec T).2 _ (hp.mem_iff.1 (tree_spec T').1)
  · exact (tree_spec T').2 _ (hp.mem_iff.2 (tree_spec T).1)

/-- C35 (idempotence): combining equal records changes nothing, so the second reduction that
`UpdateOperatorDiagnostics` performs with CEED (`/repo/src/operator.c:862`, `:880`) is harmless. -/
theorem C35_idempotent (T : RedTree) (d : Courant) (h : ∀ x ∈ T.leaves, x = d) : T.eval = d :=
  h _ (tree_spec T).1

example : (RedTree.node (.leaf ⟨2, 5, 7⟩) (.leaf ⟨2, 5, 7⟩)).eval = ⟨2, 5, 7⟩ :=
  C35_idempotent _ _ (by simp [RedTree.leaves])

/-- C35 (whole run): over all processes the reported record tells the truth about all edges. -/
theorem C35_global (dt : ℝ) (hdt : 0 ≤ dt) (procs : List (List CEdge))
    (hes : ∀ es ∈ procs, ∀ e ∈ es, e.Ok) (T : RedTree)
    (hT : T.leaves.Perm (procs.map (courantLoop dt courantReset))) :
    CourantTrue dt procs.flatten T.eval := by
  obtain ⟨h1, h2⟩ := tree_spec T
  obtain ⟨es, hmem, heq⟩ := List.mem_map.1 (hT.mem_iff.1 h1)
  have hloc : ∀ es ∈ procs, CourantTrue dt es (courantLoop dt courantReset es) :=
    fun es h => C35_local dt hdt es (hes es h)
  refine ⟨?_, ?_⟩
  · intro e he hw
    obtain ⟨es', hes', he'⟩ := List.mem_flatten.1 he
    obtain ⟨a1, a2⟩ := (hloc es' hes').1 e he' hw
    have hle := h2 _ (hT.mem_iff.2 (List.mem_map.2 ⟨es', hes', rfl⟩))
    exact ⟨a1.trans hle, fun a c h => (a2 a c h).trans hle⟩
  · rcases (hloc es hmem).2 with h | ⟨e, he, hw⟩
    · exact Or.inl (heq ▸ h)
    · exact Or.inr ⟨e, List.mem_flatten.2 ⟨es, hmem, he⟩, heq ▸ hw⟩

/-- Two processes, combined in the reverse order. -/
example : ∃ T : RedTree, T.leaves.Perm
    ([[(⟨true, 3, 1, 2, 10, some (1, 11), 5⟩ : CEdge)], [⟨true, 1, 1, 1, 12, none, 6⟩]].map
      (courantLoop 1 courantReset)) :=
  ⟨.node (.leaf _) (.leaf _), List.Perm.swap _ _ _⟩

/-- C35 (which edge): if two processes have the same number, the edge and cell reported depend on the
order of the reduction (only the number does not). -/
theorem C35_tie_violated : ∃ a b : Courant, courantOp a b ≠ courantOp b a :=
  ⟨⟨1, 0, 0⟩, ⟨1, 1, 1⟩, by simp [courantOp]⟩

/-- C35 (tracers) fails: the tracer operators look the edge's global ID up with the loop counter
instead of the edge's own index. Here two interior edges have local indices 1 and 2 (edge 0 is a
boundary edge) and global IDs 101 and 102; the first, with ID 101, attains the maximum, but ID 100
(the boundary edge) is reported. -/
theorem C35_tracer_edge_violated :
    let es := [(⟨true, 3, 1, 1, 10, some (1, 11), 101⟩ : CEdge), ⟨true, 1, 1, 1, 11, some (1, 12), 102⟩]
    let gids : ℕ → ℤ := fun n => 100 + n
    (courantLoopTracer 1 gids 0 courantReset es).edge = 100 ∧
    ¬ CourantTrue 1 es (courantLoopTracer 1 gids 0 courantReset es) := by
  intro es gids
  have h : courantLoopTracer 1 gids 0 courantReset es = ⟨3, 100, 11⟩ := by
    norm_num [courantLoopTracer, courantVisit, CEdge.cnum, CEdge.cell, courantReset, es, gids]
  rw [h]
  refine ⟨rfl, ?_⟩
  rintro ⟨_, h2⟩
  rcases h2 with h2 | ⟨e, he, _, hg, _⟩
  · simp [courantReset] at h2
  · simp only [es, List.mem_cons, List.not_mem_nil, or_false] at he
    rcases he with rfl | rfl <;> norm_num at hg

/-- C35 (tracers, what holds): the number and the cell are those of the flow operator's loop. -/
theorem C35_tracer_number_partial (dt : ℝ) (gids : ℕ → ℤ) (es : List CEdge) :
    (courantLoopTracer dt gids 0 courantReset es).num = (courantLoop dt courantReset es).num ∧
    (courantLoopTracer dt gids 0 courantReset es).cell = (courantLoop dt courantReset es).cell := by
  suffices H : ∀ (es : List CEdge) (n : ℕ) (d d' : Courant), d.num = d'.num → d.cell = d'.cell →
      (courantLoopTracer dt gids n d es).num = (courantLoop dt d' es).num ∧
      (courantLoopTracer dt gids n d es).cell = (courantLoop dt d' es).cell from
    H es 0 _ _ rfl rfl
  intro es
  induction es with
  | nil => intro n d d' h1 h2; exact ⟨h1, h2⟩
  | cons e es ih =>
    intro n d d' h1 h2
    simp only [courantLoopTracer, courantLoop, List.foldl_cons]
    apply ih
    · unfold courantVisit; rw [h1]; split_ifs <;> simp [h1]
    · unfold courantVisit; rw [h1]; split_ifs <;> simp [h2]

private theorem ceed_fold (dt : ℝ) (hdt : 0 ≤ dt) (es : List CEdge) (hes : ∀ e ∈ es, e.Ok)
    (m : ℝ) (d : Courant) (hm : 0 ≤ m) (h : d.num = m) :
    (es.foldl (fun m e => max m ((e.ceedNums dt).foldl max (0 : ℝ))) m) = (courantLoop dt d es).num := by
  induction es generalizing m d with
  | nil => simp [courantLoop, h]
  | cons e es ih =>
    simp only [courantLoop, List.foldl_cons]
    obtain ⟨h1, h2, h3, h4⟩ := hes e (List.mem_cons_self ..)
    have hn : 0 ≤ e.amax * e.len := mul_nonneg h3 h2
    have key : max m ((e.ceedNums dt).foldl max (0 : ℝ)) = (courantVisit dt d e e.gid).num := by
      unfold CEdge.ceedNums courantVisit
      by_cases hw : e.wet = true
      · rw [if_pos hw, if_pos hw]
        have hvis : (if e.cnum dt > d.num then (⟨e.cnum dt, e.gid, e.cell⟩ : Courant) else d).num =
            max m (e.cnum dt) := by
          split
          · rename_i hh; rw [max_eq_right]; linarith
          · rename_i hh; rw [max_eq_left, h]; linarith [not_lt.1 hh]
        rw [hvis]
        have hL : -e.amax * (-e.len / e.areaL) * dt = e.amax * e.len / e.areaL * dt := by ring
        have hL0 : 0 ≤ e.amax * e.len / e.areaL * dt := mul_nonneg (div_nonneg hn h1.le) hdt
        cases hr : e.right with
        | none => simp only [List.foldl_cons, List.foldl_nil, hL, CEdge.cnum, hr, max_eq_right hL0]
        | some ac =>
          obtain ⟨a, c⟩ := ac
          have ha := h4 a c hr
          have hR : e.amax * (e.len / a) * dt = e.amax * e.len / a * dt := by ring
          simp only [List.foldl_cons, List.foldl_nil, hL, hR, CEdge.cnum, hr, max_eq_right hL0]
          congr 1
          rcases le_total e.areaL a with hle | hle
          · rw [min_eq_left hle, max_eq_left]
            exact mul_le_mul_of_nonneg_right (div_le_div_of_nonneg_left hn h1 hle) hdt
          · rw [min_eq_right hle, max_eq_right]
            exact mul_le_mul_of_nonneg_right (div_le_div_of_nonneg_left hn ha hle) hdt
      · rw [if_neg hw, if_neg hw, h]
        cases e.right <;> simp [hm]
    rw [key]
    refine ih (fun e' he' => hes e' (List.mem_cons_of_mem _ he')) _ _ ?_ rfl
    rw [← key]
    exact le_max_of_le_left hm

/-- C35 (CEED): with CEED the number is the same as with PETSc when the wave speeds are. -/
theorem C35_ceed_number_partial (dt : ℝ) (hdt : 0 ≤ dt) (es : List CEdge) (hes : ∀ e ∈ es, e.Ok) :
    (courantCeed dt courantReset es).num = (courantLoop dt courantReset es).num :=
  ceed_fold dt hdt es hes 0 courantReset le_rfl rfl

/-- C35 (CEED) fails: the edge and cell are never set with CEED, so `-1` is reported whatever the
edges are, also when the maximum is positive. -/
theorem C35_ceed_edge_violated :
    (∀ dt es, (courantCeed dt courantReset es).edge = -1 ∧ (courantCeed dt courantReset es).cell = -1) ∧
    0 < (courantCeed 1 courantReset [⟨true, 3, 1, 1, 10, some (1, 11), 101⟩]).num := by
  refine ⟨fun dt es => ⟨rfl, rfl⟩, ?_⟩
  norm_num [courantCeed, CEdge.ceedNums, courantReset]

end RDy
