import Verif.Lemmas.MeshTables

/-!
# C96: the tables of the mesh describe the mesh

The specification is about the points of the DMPlex: what a row of a table should hold, that the tables of
cells, edges and vertices agree with each other, and that the same vertex (the same cell) has the same number
on every process and different ones have different numbers.
-/

namespace RDy

/-- The point is a cell, an edge, a vertex. -/
def Plex.IsCell (P : Plex) (p : ℕ) : Prop := P.cS ≤ p ∧ p < P.cE
@[inherit_doc Plex.IsCell]
def Plex.IsEdge (P : Plex) (p : ℕ) : Prop := P.eS ≤ p ∧ p < P.eE
@[inherit_doc Plex.IsCell]
def Plex.IsVertex (P : Plex) (p : ℕ) : Prop := P.vS ≤ p ∧ p < P.vE

instance (P : Plex) (p : ℕ) : Decidable (P.IsCell p) := inferInstanceAs (Decidable (_ ∧ _))
instance (P : Plex) (p : ℕ) : Decidable (P.IsEdge p) := inferInstanceAs (Decidable (_ ∧ _))
instance (P : Plex) (p : ℕ) : Decidable (P.IsVertex p) := inferInstanceAs (Decidable (_ ∧ _))

/-- What petsc guarantees of a two-dimensional mesh: the three kinds of points are different, a cell consists
of edges and vertices, an edge of two vertices, and stars are the converse of closures. -/
structure PlexOk (P : Plex) : Prop where
  edge_vertex : ∀ p, ¬ (P.IsEdge p ∧ P.IsVertex p)
  edge_cell : ∀ p, ¬ (P.IsEdge p ∧ P.IsCell p)
  cell : ∀ c, P.IsCell c → ∀ p ∈ P.closure c, P.IsEdge p ∨ P.IsVertex p
  edge : ∀ e, P.IsEdge e → ∃ a b, P.closure e = [a, b] ∧ P.IsVertex a ∧ P.IsVertex b
  vertex_star : ∀ v, P.IsVertex v → ∀ p ∈ P.star v, P.IsEdge p ∨ P.IsCell p
  edge_star : ∀ e, P.IsEdge e → ∀ p ∈ P.star e, P.IsCell p
  dual : ∀ p q, q ∈ P.closure p ↔ p ∈ P.star q

theorem edgesIn_eq (P : Plex) (ps : List ℕ) :
    edgesIn P ps = (ps.filter fun p => decide (P.IsEdge p)).map fun p : ℕ => (p : ℤ) - P.eS := by
  unfold edgesIn
  congr 1
  apply List.filter_congr
  intro p _
  rw [withinBounds, ← Bool.decide_and]
  rfl

theorem othersIn_eq (P : Plex) (oS : ℕ) (K : ℕ → Prop) [DecidablePred K] (ps : List ℕ)
    (h : ∀ p ∈ ps, P.IsEdge p ∨ K p) (hd : ∀ p, ¬ (P.IsEdge p ∧ K p)) :
    othersIn P oS ps = (ps.filter fun p => decide (K p)).map fun p : ℕ => (p : ℤ) - oS := by
  unfold othersIn
  congr 1
  apply List.filter_congr
  intro p hp
  have e : withinBounds p P.eS P.eE = decide (P.IsEdge p) := by rw [withinBounds, ← Bool.decide_and]; rfl
  rw [e]
  rcases h p hp with h1 | h1
  · rw [decide_eq_true h1, decide_eq_false (fun h2 => hd p ⟨h1, h2⟩)]; rfl
  · rw [decide_eq_true h1, decide_eq_false (fun h2 => hd p ⟨h2, h1⟩)]; rfl

/-- The edges, vertices (cells) that a table has in row `i`. -/
def cellEdges (Ps : List Plex) (t : AdjTab) (i : ℕ) : List ℤ := readRow t.nE t.eIds (maxAttributes Ps).1.1 i
@[inherit_doc cellEdges]
def cellVertices (Ps : List Plex) (t : AdjTab) (i : ℕ) : List ℤ := readRow t.nO t.oIds (maxAttributes Ps).1.2 i
@[inherit_doc cellEdges]
def vertexEdges (Ps : List Plex) (t : AdjTab) (i : ℕ) : List ℤ := readRow t.nE t.eIds (maxAttributes Ps).2.1 i
@[inherit_doc cellEdges]
def vertexCells (Ps : List Plex) (t : AdjTab) (i : ℕ) : List ℤ := readRow t.nO t.oIds (maxAttributes Ps).2.2 i

/-- C96 (cells): on every process of every mesh, whatever the numbers of edges of its cells, no array is
overrun and every cell has exactly its edges and its vertices, in the order of petsc. -/
theorem C96_cells (Ps : List Plex) (P : Plex) (hP : P ∈ Ps) (ok : PlexOk P) :
    ∃ t, cellTable Ps P = some t ∧ ∀ i < P.cE - P.cS,
      cellEdges Ps t i = ((P.closure (P.cS + i)).filter fun p => decide (P.IsEdge p)).map (fun p : ℕ => (p : ℤ) - P.eS) ∧
      cellVertices Ps t i =
        ((P.closure (P.cS + i)).filter fun p => decide (P.IsVertex p)).map (fun p : ℕ => (p : ℤ) - P.vS) := by
  have hm := (le_maxAttributes Ps P hP).1
  obtain ⟨t, ht, h1, -⟩ := fillRows_spec P ⟨P.cE - P.cS, (maxAttributes Ps).1.1, (maxAttributes Ps).1.2⟩ P.vS P.cellPts
    (P.cE - P.cS) (le_refl _) (fun i hi => by
      have := le_localMax P P.vS P.cellPts _ i hi
      exact ⟨le_trans this.1 hm.1, le_trans this.2 hm.2⟩)
  refine ⟨t, ht, fun i hi => ?_⟩
  obtain ⟨a, b⟩ := h1 i hi
  refine ⟨by rw [← edgesIn_eq]; exact a, ?_⟩
  rw [← othersIn_eq P P.vS P.IsVertex _ (ok.cell _ ⟨by omega, by omega⟩) ok.edge_vertex]
  exact b

/-- C96 (vertices): the same for the edges and cells around a vertex. -/
theorem C96_vertices (Ps : List Plex) (P : Plex) (hP : P ∈ Ps) (ok : PlexOk P) :
    ∃ t, vertexTable Ps P = some t ∧ ∀ i < P.vE - P.vS,
      vertexEdges Ps t i = ((P.star (P.vS + i)).filter fun p => decide (P.IsEdge p)).map (fun p : ℕ => (p : ℤ) - P.eS) ∧
      vertexCells Ps t i = ((P.star (P.vS + i)).filter fun p => decide (P.IsCell p)).map (fun p : ℕ => (p : ℤ) - P.cS) := by
  have hm := (le_maxAttributes Ps P hP).2
  obtain ⟨t, ht, h1, -⟩ := fillRows_spec P ⟨P.vE - P.vS, (maxAttributes Ps).2.1, (maxAttributes Ps).2.2⟩ P.cS P.vertexPts
    (P.vE - P.vS) (le_refl _) (fun i hi => by
      have := le_localMax P P.cS P.vertexPts _ i hi
      exact ⟨le_trans this.1 hm.1, le_trans this.2 hm.2⟩)
  refine ⟨t, ht, fun i hi => ?_⟩
  obtain ⟨a, b⟩ := h1 i hi
  refine ⟨by rw [← edgesIn_eq]; exact a, ?_⟩
  rw [← othersIn_eq P P.cS P.IsCell _ (ok.vertex_star _ ⟨by omega, by omega⟩) ok.edge_cell]
  exact b

/-- A triangle and a quadrilateral that share an edge: cells 0, 1; vertices 2 to 6; edges 7 to 12. -/
def twoCells : Plex where
  cS := 0
  cE := 2
  vS := 2
  vE := 7
  eS := 7
  eE := 13
  closure p := [[7, 8, 9, 2, 3, 4], [8, 10, 11, 12, 4, 3, 5, 6], [], [], [], [], [], [2, 3], [3, 4], [4, 2], [3, 5],
    [5, 6], [6, 4]].getD p []
  star p := [[], [], [7, 9, 0], [7, 8, 10, 0, 1], [8, 9, 12, 0, 1], [10, 11, 1], [11, 12, 1], [0], [0, 1], [0], [1], [1],
    [1]].getD p []

/-- For a mesh given by finite lists the guarantees can be checked. -/
theorem plexOk_of (P : Plex) (lc ls : List (List ℕ)) (hc : ∀ p, P.closure p = lc.getD p []) (hs : ∀ p, P.star p = ls.getD p [])
    (hl : ls.length = lc.length) (d1 : P.cE ≤ P.vS ∧ P.vE ≤ P.eS ∧ P.eE ≤ lc.length ∧ P.vS ≤ P.vE ∧ P.eS ≤ P.eE)
    (h1 : ∀ c < lc.length, P.IsCell c → ∀ p ∈ lc.getD c [], P.IsEdge p ∨ P.IsVertex p)
    (h2 : ∀ e < lc.length, P.IsEdge e → (lc.getD e []).length = 2 ∧ ∀ p ∈ lc.getD e [], P.IsVertex p)
    (h3 : ∀ v < lc.length, P.IsVertex v → ∀ p ∈ ls.getD v [], P.IsEdge p ∨ P.IsCell p)
    (h4 : ∀ e < lc.length, P.IsEdge e → ∀ p ∈ ls.getD e [], P.IsCell p)
    (h5 : ∀ p < lc.length, ∀ q ∈ lc.getD p [], q < lc.length ∧ p ∈ ls.getD q [])
    (h6 : ∀ q < lc.length, ∀ p ∈ ls.getD q [], p < lc.length ∧ q ∈ lc.getD p []) : PlexOk P := by
  have big : ∀ p, lc.length ≤ p → lc.getD p [] = [] ∧ ls.getD p [] = [] := by
    intro p hp
    constructor <;> rw [List.getD_eq_getElem?_getD, List.getElem?_eq_none (by omega)] <;> rfl
  refine ⟨?_, ?_, ?_, ?_, ?_, ?_, ?_⟩
  · rintro p ⟨⟨a, -⟩, ⟨-, b⟩⟩; omega
  · rintro p ⟨⟨a, -⟩, ⟨-, b⟩⟩; omega
  · intro c h; rw [hc]; exact h1 c (by have := h.2; omega) h
  · intro e h
    obtain ⟨a, b⟩ := h2 e (by have := h.2; omega) h
    rw [hc]
    obtain ⟨x, y, hxy⟩ := List.length_eq_two.1 a
    exact ⟨x, y, hxy, b x (by rw [hxy]; simp), b y (by rw [hxy]; simp)⟩
  · intro v h; rw [hs]; exact h3 v (by have := h.2; omega) h
  · intro e h; rw [hs]; exact h4 e (by have := h.2; omega) h
  · intro p q
    rw [hc, hs]
    constructor
    · intro h
      by_cases hp : p < lc.length
      · exact (h5 p hp q h).2
      · rw [(big p (by omega)).1] at h; exact absurd h (by simp)
    · intro h
      by_cases hq : q < lc.length
      · exact (h6 q hq p h).2
      · rw [(big q (by omega)).2] at h; exact absurd h (by simp)

theorem twoCells_ok : PlexOk twoCells :=
  plexOk_of twoCells _ _ (fun _ => rfl) (fun _ => rfl) (by decide) (by decide) (by decide) (by decide) (by decide) (by decide)
    (by decide) (by decide)

/-- The triangle has three edges, the quadrilateral four, in blocks of four. -/
example : ∃ t, cellTable [twoCells] twoCells = some t ∧ cellEdges [twoCells] t 0 = [0, 1, 2] ∧
    cellVertices [twoCells] t 1 = [2, 1, 3, 4] := by
  obtain ⟨t, ht, h⟩ := C96_cells [twoCells] twoCells (by simp) twoCells_ok
  exact ⟨t, ht, by rw [(h 0 (by decide)).1]; decide, by rw [(h 1 (by decide)).2]; decide⟩

example : ∃ t, vertexTable [twoCells] twoCells = some t ∧ vertexEdges [twoCells] t 1 = [0, 1, 3] ∧
    vertexCells [twoCells] t 1 = [0, 1] := by
  obtain ⟨t, ht, h⟩ := C96_vertices [twoCells] twoCells (by simp) twoCells_ok
  exact ⟨t, ht, by rw [(h 1 (by decide)).1]; decide, by rw [(h 1 (by decide)).2]; decide⟩

/-! ## Edges -/

/-- C96 (edges): an edge with one or two cells has these cells, the second being -1 if there is one only, and
its two vertices. -/
theorem C96_edges (P : Plex) (ok : PlexOk P) (i : ℕ) (hi : i < P.eE - P.eS) :
    (∀ c, P.star (P.eS + i) = [c] → edgeCells P i = ((c : ℤ) - P.cS, -1)) ∧
    (∀ c d, P.star (P.eS + i) = [c, d] → edgeCells P i = ((c : ℤ) - P.cS, (d : ℤ) - P.cS)) ∧
    ∃ a b, P.closure (P.eS + i) = [a, b] ∧ edgeVertices P i = some ((a : ℤ) - P.vS, (b : ℤ) - P.vS) := by
  have he : P.IsEdge (P.eS + i) := ⟨by omega, by omega⟩
  have hc := ok.edge_star _ he
  refine ⟨?_, ?_, ?_⟩
  · intro c h
    unfold edgeCells
    rw [h]
    simp [edgeCellStep]
  · intro c d h
    have h1 := hc c (by rw [h]; simp)
    unfold edgeCells
    rw [h]
    simp only [List.foldl_cons, List.foldl_nil, edgeCellStep, ne_eq, not_true_eq_false, if_false]
    have : (c : ℤ) - P.cS ≠ -1 := by have := h1.1; omega
    rw [if_pos this]
  · obtain ⟨a, b, h, -, -⟩ := ok.edge _ he
    exact ⟨a, b, h, by unfold edgeVertices; rw [h]⟩

example : edgeCells twoCells 1 = (0, 1) ∧ edgeCells twoCells 0 = (0, -1) ∧ edgeVertices twoCells 1 = some (1, 2) := by
  refine ⟨(C96_edges twoCells twoCells_ok 1 (by decide)).2.1 0 1 rfl,
    (C96_edges twoCells twoCells_ok 0 (by decide)).1 0 rfl, ?_⟩
  obtain ⟨a, b, h1, h2⟩ := (C96_edges twoCells twoCells_ok 1 (by decide)).2.2
  have e : [a, b] = [3, 4] := h1.symm
  simp only [List.cons.injEq, and_true] at e
  rw [h2, e.1, e.2]
  rfl

theorem mem_ids (K : ℕ → Prop) [DecidablePred K] (s : ℕ) (ps : List ℕ) (j : ℕ) (hj : K (s + j)) :
    ((j : ℤ) ∈ (ps.filter fun p => decide (K p)).map fun p : ℕ => (p : ℤ) - s) ↔ s + j ∈ ps := by
  simp only [List.mem_map, List.mem_filter, decide_eq_true_eq]
  constructor
  · rintro ⟨p, ⟨hp, hk⟩, e⟩
    have : p = s + j := by omega
    exact this ▸ hp
  · intro h
    exact ⟨s + j, ⟨h, hj⟩, by push_cast; ring⟩

/-- C96 (agreement): the tables agree: a cell has an edge exactly if the edge has the cell (no edge having more
than two), a cell has a vertex exactly if the vertex has the cell, and a vertex has an edge exactly if the edge
has the vertex. -/
theorem C96_agreement (Ps : List Plex) (P : Plex) (hP : P ∈ Ps) (ok : PlexOk P) (tc tv : AdjTab)
    (hc : cellTable Ps P = some tc) (hv : vertexTable Ps P = some tv) (i j k : ℕ) (hi : i < P.cE - P.cS)
    (hj : j < P.eE - P.eS) (hk : k < P.vE - P.vS) :
    ((P.star (P.eS + j)).length ≤ 2 →
      ((j : ℤ) ∈ cellEdges Ps tc i ↔ (edgeCells P j).1 = i ∨ (edgeCells P j).2 = i)) ∧
    ((k : ℤ) ∈ cellVertices Ps tc i ↔ (i : ℤ) ∈ vertexCells Ps tv k) ∧
    ((j : ℤ) ∈ vertexEdges Ps tv k ↔ ∃ a b, edgeVertices P j = some (a, b) ∧ (a = k ∨ b = k)) := by
  obtain ⟨tc', htc, h1⟩ := C96_cells Ps P hP ok
  obtain ⟨tv', htv, h2⟩ := C96_vertices Ps P hP ok
  rw [hc, Option.some.injEq] at htc
  rw [hv, Option.some.injEq] at htv
  subst htc htv
  have hce : P.IsCell (P.cS + i) := ⟨by omega, by omega⟩
  have hed : P.IsEdge (P.eS + j) := ⟨by omega, by omega⟩
  have hve : P.IsVertex (P.vS + k) := ⟨by omega, by omega⟩
  obtain ⟨e1, e2, a, b, e3, e4⟩ := C96_edges P ok j hj
  refine ⟨?_, ?_, ?_⟩
  · intro hlen
    rw [(h1 i hi).1, mem_ids P.IsEdge P.eS _ j hed, ok.dual]
    have hs := ok.edge_star _ hed
    rcases hst : P.star (P.eS + j) with _ | ⟨c, _ | ⟨d, _ | ⟨f, l⟩⟩⟩
    · have : edgeCells P j = (-1, -1) := by unfold edgeCells; rw [hst]; rfl
      rw [this]
      simp only [List.not_mem_nil, false_iff, not_or]
      constructor <;> omega
    · rw [e1 c hst]
      have := (hs c (by rw [hst]; simp)).1
      simp only [List.mem_singleton]
      constructor
      · intro h; left; push_cast [← h]; ring
      · rintro (h | h) <;> omega
    · rw [e2 c d hst]
      have := (hs c (by rw [hst]; simp)).1
      have := (hs d (by rw [hst]; simp)).1
      simp only [List.mem_cons, List.not_mem_nil, or_false]
      constructor
      · rintro (h | h)
        · left; push_cast [← h]; ring
        · right; push_cast [← h]; ring
      · rintro (h | h)
        · left; omega
        · right; omega
    · rw [hst] at hlen; simp only [List.length_cons] at hlen; omega
  · rw [(h1 i hi).2, (h2 k hk).2, mem_ids P.IsVertex P.vS _ k hve,
      mem_ids P.IsCell P.cS _ i hce]
    exact ok.dual _ _
  · rw [(h2 k hk).1, mem_ids P.IsEdge P.eS _ j hed, ← ok.dual, e3, e4]
    have hab : P.vS ≤ a ∧ P.vS ≤ b := by
      obtain ⟨a', b', h', ha, hb⟩ := ok.edge _ hed
      rw [e3] at h'
      simp only [List.cons.injEq, and_true] at h'
      rw [h'.1, h'.2]
      exact ⟨ha.1, hb.1⟩
    simp only [List.mem_cons, List.not_mem_nil, or_false, Option.some.injEq, Prod.mk.injEq]
    constructor
    · rintro (h | h)
      · exact ⟨_, _, ⟨rfl, rfl⟩, Or.inl (by push_cast [← h]; ring)⟩
      · exact ⟨_, _, ⟨rfl, rfl⟩, Or.inr (by push_cast [← h]; ring)⟩
    · rintro ⟨x, y, ⟨rfl, rfl⟩, h | h⟩
      · left; omega
      · right; omega

example (tc tv : AdjTab) (hc : cellTable [twoCells] twoCells = some tc) (hv : vertexTable [twoCells] twoCells = some tv) :
    (2 : ℤ) ∈ cellVertices [twoCells] tc 1 ↔ (1 : ℤ) ∈ vertexCells [twoCells] tv 2 :=
  (C96_agreement [twoCells] twoCells (by simp) twoCells_ok tc tv hc hv 1 1 2 (by decide) (by decide) (by decide)).2.1

/-- C96 (edges, violated): an edge at which three cells meet (a mesh that petsc accepts) keeps the first and
the last: the cell between them has the edge, but the edge has not the cell, and no flux crosses it. Only
debugging builds of petsc check the number. -/
theorem C96_nonmanifold_violated (P : Plex) (ok : PlexOk P) (i c d f : ℕ) (hi : i < P.eE - P.eS)
    (h : P.star (P.eS + i) = [c, d, f]) (hd : d ≠ c ∧ d ≠ f) :
    (P.eS + i) ∈ P.closure d ∧ (edgeCells P i).1 ≠ (d : ℤ) - P.cS ∧ (edgeCells P i).2 ≠ (d : ℤ) - P.cS := by
  have he : P.IsEdge (P.eS + i) := ⟨by omega, by omega⟩
  have hc := ok.edge_star _ he
  have h1 := (hc c (by rw [h]; simp)).1
  have hne : (c : ℤ) - P.cS ≠ -1 := by omega
  have e : edgeCells P i = ((c : ℤ) - P.cS, (f : ℤ) - P.cS) := by
    unfold edgeCells
    rw [h]
    simp only [List.foldl_cons, List.foldl_nil, edgeCellStep, ne_eq, not_true_eq_false, if_false]
    rw [if_pos hne]
    dsimp only
    rw [if_pos hne]
  refine ⟨(ok.dual _ _).2 (by rw [h]; simp), ?_, ?_⟩
  · rw [e]; dsimp only; omega
  · rw [e]; dsimp only; omega

/-- Three triangles (cells 0, 1, 2) that meet at one edge (8) between the vertices 3 and 4. -/
def threeCells : Plex where
  cS := 0
  cE := 3
  vS := 3
  vE := 8
  eS := 8
  eE := 15
  closure p := [[8, 9, 10, 3, 4, 5], [8, 11, 12, 3, 4, 6], [8, 13, 14, 3, 4, 7], [], [], [], [], [], [3, 4], [3, 5], [5, 4],
    [3, 6], [6, 4], [3, 7], [7, 4]].getD p []
  star p := [[], [], [], [8, 9, 11, 13, 0, 1, 2], [8, 10, 12, 14, 0, 1, 2], [9, 10, 0], [11, 12, 1], [13, 14, 2], [0, 1, 2],
    [0], [0], [1], [1], [2], [2]].getD p []

example : (edgeCells threeCells 0).1 ≠ 1 ∧ (edgeCells threeCells 0).2 ≠ 1 :=
  (C96_nonmanifold_violated threeCells (plexOk_of threeCells _ _ (fun _ => rfl) (fun _ => rfl) (by decide) (by decide)
    (by decide) (by decide) (by decide) (by decide) (by decide) (by decide)) 0 0 1 2 (by decide) rfl (by decide)).2

/-! ## Global numbers of vertices -/

/-- What petsc guarantees of the migration star forest of a process with `chart` points: one root for each
point; the leaves, if listed, are sorted. -/
structure VertexProcOk (p : VertexProc) : Prop where
  roots : p.sf.roots.length = p.chart
  vertices : p.vS ≤ p.vE ∧ p.vE ≤ p.chart
  sorted : ∀ l, p.sf.leaves = some l → l.Pairwise (· < ·) ∧ l.length = p.chart ∧ ∀ x ∈ l, x < p.chart

/-- The process and the number, before the distribution of the mesh, of the `i`-th vertex. -/
def VertexProc.root (p : VertexProc) (i : ℕ) : ℕ × ℕ := (p.sf.roots[p.vS + i]?).getD (0, 0)

theorem mapM_some {α β : Type} (f : α → Option β) (g : α → β) (l : List α) (h : ∀ a ∈ l, f a = some (g a)) :
    l.mapM f = some (l.map g) := by
  induction l with
  | nil => rfl
  | cons a l ih =>
    rw [List.mapM_cons, h a (by simp), ih fun b hb => h b (by simp [hb])]
    rfl

theorem migrationIds_ok (p : VertexProc) (ok : VertexProcOk p) :
    ∃ t, migrationIds p.sf p.chart p.vS p.vE = some t ∧ (∀ i < p.vE - p.vS, t.1 i = (p.root i).2) ∧
      MinSoFar (fun w => ((p.sf.roots[w]?).getD (0, 0)).2) p.vS p.vE t.2 := by
  obtain ⟨t, ht, h1, h2⟩ := migrationLoop_spec p.sf p.chart p.vS p.vE
    (fun l hl => sorted_eq_range l _ (ok.sorted l hl).1 (ok.sorted l hl).2.1 (ok.sorted l hl).2.2) ok.vertices.2
    (p.vE - p.vS) p.vS (le_refl _) (le_refl _) (fun _ => -1, none) (fun w => ((p.sf.roots[w]?).getD (0, 0)).2)
    (fun w hw => by
      have : w < p.sf.roots.length := by rw [ok.roots]; exact hw
      rw [List.getElem?_eq_getElem this]; rfl)
    (fun w h1 h2 => absurd h1 (by omega)) ⟨fun h => absurd h (lt_irrefl _), fun _ => rfl⟩ ok.vertices.1
  refine ⟨t, by unfold migrationIds; rw [if_pos ok.roots.symm]; exact ht, ?_, h2⟩
  intro i hi
  have := h1 (p.vS + i) (by omega) (by omega)
  rw [Nat.add_sub_cancel_left] at this
  exact this

/-- C96 (numbers of vertices): if the mesh was on one process before its distribution (all roots are on process
`r`) and every process has a vertex, then the numbering is defined, the numbers are not negative, the smallest
is 0, and two vertices, on the same process or on different ones, have the same number exactly if they are the
same vertex of the mesh. What is missing: processes without vertices (`C96_empty_violated`), meshes read by
several processes (`C96_roots_violated`). -/
theorem C96_vertex_numbers_partial (ps : List VertexProc) (hne : ps ≠ []) (ok : ∀ p ∈ ps, VertexProcOk p)
    (hv : ∀ p ∈ ps, p.vS < p.vE) (r : ℕ) (hr : ∀ p ∈ ps, ∀ i < p.vE - p.vS, (p.root i).1 = r) :
    ∃ ids : VertexProc → ℕ → ℤ, vertexGlobalIds ps = some (ps.map ids) ∧
      (∀ p ∈ ps, ∀ i < p.vE - p.vS, 0 ≤ ids p i) ∧ (∃ p ∈ ps, ∃ i < p.vE - p.vS, ids p i = 0) ∧
      (∀ p ∈ ps, ∀ q ∈ ps, ∀ i < p.vE - p.vS, ∀ j < q.vE - q.vS, ids p i = ids q j ↔ p.root i = q.root j) := by
  choose! t ht h1 h2 using fun p hp => migrationIds_ok p (ok p hp)
  have hmin : ∀ p ∈ ps, ∃ m, (t p).2 = some m ∧ (∀ i < p.vE - p.vS, m ≤ (p.root i).2) ∧
      ∃ i < p.vE - p.vS, m = (p.root i).2 := by
    intro p hp
    obtain ⟨m, a, b, w, c, d, e⟩ := (h2 p hp).1 (hv p hp)
    refine ⟨m, a, fun i hi => b (p.vS + i) (by omega) (by omega), w - p.vS, by omega, ?_⟩
    rw [VertexProc.root, Nat.add_sub_cancel' c]; exact e
  choose! m hm hle hat using hmin
  obtain ⟨M, hM, hM1, hM2⟩ := reduceMin_some (ps.map m) (by simpa using hne)
  have hred : reduceMin ((ps.map t).map Prod.snd) = some M := by
    rw [← hM, List.map_map, List.map_map]
    congr 1
    exact List.map_congr_left fun p hp => hm p hp
  refine ⟨fun p i => (t p).1 i - M, ?_, ?_, ?_, ?_⟩
  · unfold vertexGlobalIds
    rw [mapM_some _ t ps ht]
    dsimp only
    rw [hred]
    dsimp only
    rw [List.map_map]
    rfl
  · intro p hp i hi
    dsimp only
    rw [h1 p hp i hi]
    have a := hle p hp i hi
    have b := hM1 (m p) (List.mem_map_of_mem hp)
    omega
  · obtain ⟨p, hp, e⟩ := List.mem_map.1 hM2
    obtain ⟨i, hi, e'⟩ := hat p hp
    refine ⟨p, hp, i, hi, ?_⟩
    dsimp only
    rw [h1 p hp i hi, ← e', e]; ring
  · intro p hp q hq i hi j hj
    dsimp only
    rw [h1 p hp i hi, h1 q hq j hj]
    constructor
    · intro h
      exact Prod.ext ((hr p hp i hi).trans (hr q hq j hj).symm) (by omega)
    · intro h; rw [h]

/-- Two processes that share the vertex 5 of a mesh with vertices 2 to 5. -/
def twoProcs : List VertexProc :=
  [⟨3, 1, 3, ⟨none, [(0, 0), (0, 2), (0, 5)]⟩⟩, ⟨4, 1, 4, ⟨some [0, 1, 2, 3], [(0, 1), (0, 5), (0, 3), (0, 4)]⟩⟩]

theorem twoProcs_ok : ∀ p ∈ twoProcs, VertexProcOk p := by
  intro p hp
  simp only [twoProcs, List.mem_cons, List.not_mem_nil, or_false] at hp
  rcases hp with rfl | rfl
  · exact ⟨rfl, by decide, fun l h => absurd h (by simp)⟩
  · refine ⟨rfl, by decide, fun l h => ?_⟩
    rw [Option.some.injEq] at h
    subst h
    exact ⟨by decide, by decide, by decide⟩

example : ∃ ids : VertexProc → ℕ → ℤ, vertexGlobalIds twoProcs = some (twoProcs.map ids) := by
  obtain ⟨ids, h, -⟩ := C96_vertex_numbers_partial twoProcs (by simp [twoProcs]) twoProcs_ok
    (by intro p hp; simp only [twoProcs, List.mem_cons, List.not_mem_nil, or_false] at hp; rcases hp with rfl | rfl <;> decide)
    0 (by intro p hp; simp only [twoProcs, List.mem_cons, List.not_mem_nil, or_false] at hp; rcases hp with rfl | rfl <;> decide)
  exact ⟨ids, h⟩

/-- C96 (numbers of vertices, violated): if one process has no vertex (more processes than cells), its minimum
was never assigned, and the numbers on *all* processes are undefined. -/
theorem C96_empty_violated (ps : List VertexProc) (ok : ∀ p ∈ ps, VertexProcOk p) (h : ∃ p ∈ ps, p.vS = p.vE) :
    vertexGlobalIds ps = none := by
  choose! t ht h1 h2 using fun p hp => migrationIds_ok p (ok p hp)
  obtain ⟨p, hp, e⟩ := h
  unfold vertexGlobalIds
  rw [mapM_some _ t ps ht]
  dsimp only
  rw [reduceMin_none _ (by
    rw [List.map_map]
    exact List.mem_map.2 ⟨p, hp, (h2 p hp).2 e⟩)]

example : vertexGlobalIds (twoProcs ++ [⟨0, 0, 0, ⟨none, []⟩⟩]) = none :=
  C96_empty_violated _ (by
    intro p hp
    rcases List.mem_append.1 hp with hp | hp
    · exact twoProcs_ok p hp
    · rw [List.mem_singleton] at hp; subst hp
      exact ⟨rfl, by decide, fun l h => absurd h (by simp)⟩) ⟨⟨0, 0, 0, ⟨none, []⟩⟩, List.mem_append_right _ (by simp), rfl⟩

/-- C96 (numbers of vertices, violated): the process of the root is ignored. Of a mesh that several processes
have read, different vertices get the same number. -/
theorem C96_roots_violated :
    ∃ ps : List VertexProc, (∀ p ∈ ps, VertexProcOk p) ∧ (∀ p ∈ ps, p.vS < p.vE) ∧
      ∃ f g : ℕ → ℤ, vertexGlobalIds ps = some [f, g] ∧ f 0 = g 0 ∧
        ∃ p q, ps = [p, q] ∧ p.root 0 ≠ q.root 0 := by
  refine ⟨[⟨2, 1, 2, ⟨none, [(0, 0), (0, 1)]⟩⟩, ⟨2, 1, 2, ⟨none, [(1, 0), (1, 1)]⟩⟩], ?_, by simp, _, _, rfl, rfl, _, _, rfl,
    by decide⟩
  intro p hp
  simp only [List.mem_cons, List.not_mem_nil, or_false] at hp
  rcases hp with rfl | rfl <;> exact ⟨rfl, by decide, fun l h => absurd h (by simp)⟩

/-- C96 (numbers after refinement): the encoding that petsc uses for vertices of other processes is undone. -/
theorem C96_refined_numbers (n : ℕ) : refinedGlobalId n = n ∧ refinedGlobalId (-(n : ℤ) - 1) = n := by
  constructor
  · unfold refinedGlobalId; rw [if_neg (by omega)]
  · unfold refinedGlobalId; rw [if_pos (by omega)]; ring

example : refinedGlobalId (-8) = 7 := (C96_refined_numbers 7).2

/-! ## Coordinates -/

/-- C96 (coordinates): the numbers of the vertices being as above and the coordinates those of the vertices of
the mesh, the vector of coordinates that is written with the output has at the place of every vertex its
coordinates. If there are as many places as vertices, every place is filled. -/
theorem C96_coordinates {α : Type} (size : ℕ) (ps : List VertexProc) (ids : VertexProc → ℕ → ℤ) (X : ℕ × ℕ → α)
    (hb : ∀ p ∈ ps, ∀ i < p.vE - p.vS, 0 ≤ ids p i ∧ ids p i < size)
    (hinj : ∀ p ∈ ps, ∀ q ∈ ps, ∀ i < p.vE - p.vS, ∀ j < q.vE - q.vS, ids p i = ids q j ↔ p.root i = q.root j) :
    ∃ g, coordVector size (ps.map fun p => (List.range (p.vE - p.vS)).map fun i => (ids p i, X (p.root i))) = some g ∧
      (∀ p ∈ ps, ∀ i < p.vE - p.vS, g (ids p i).toNat = some (X (p.root i))) ∧
      (((ps.flatMap fun p => (List.range (p.vE - p.vS)).map p.root).toFinset.card = size) →
        ∀ k < size, ∃ p ∈ ps, ∃ i < p.vE - p.vS, k = ids p i ∧ g k = some (X (p.root i))) := by
  classical
  rcases isEmpty_or_nonempty α with hα | ⟨⟨x0⟩⟩
  · -- without values there is no vertex
    have hnone : ∀ p ∈ ps, ∀ i, ¬ i < p.vE - p.vS := fun p hp i hi => hα.elim (X (p.root i))
    have hz : ∀ p ∈ ps, p.vE - p.vS = 0 := fun p hp => by
      by_contra h; exact hnone p hp 0 (Nat.pos_of_ne_zero h)
    obtain ⟨g, hg, -, -⟩ := coordVector_spec (α := α) size (fun _ => X (0, 0))
      (ps.map fun p => (List.range (p.vE - p.vS)).map fun i => (ids p i, X (p.root i)))
      (fun l hl q hq => hα.elim q.2) (fun l hl q hq => hα.elim q.2)
    exact hα.elim (X (0, 0))
  · -- the coordinates as a function of the number
    let x : ℕ → α := fun k =>
      if h : ∃ p ∈ ps, ∃ i < p.vE - p.vS, ids p i = k then X (h.choose.root h.choose_spec.2.choose) else x0
    have hx : ∀ p ∈ ps, ∀ i < p.vE - p.vS, x (ids p i).toNat = X (p.root i) := by
      intro p hp i hi
      have h : ∃ q ∈ ps, ∃ j < q.vE - q.vS, ids q j = ((ids p i).toNat : ℤ) :=
        ⟨p, hp, i, hi, (Int.toNat_of_nonneg (hb p hp i hi).1).symm⟩
      have e : x (ids p i).toNat = X (h.choose.root h.choose_spec.2.choose) := dif_pos h
      rw [e]
      congr 1
      refine (hinj _ h.choose_spec.1 p hp _ h.choose_spec.2.choose_spec.1 i hi).1 ?_
      rw [h.choose_spec.2.choose_spec.2, Int.toNat_of_nonneg (hb p hp i hi).1]
    obtain ⟨g, hg, h1, h2⟩ := coordVector_spec size x
      (ps.map fun p => (List.range (p.vE - p.vS)).map fun i => (ids p i, X (p.root i)))
      (by
        intro l hl q hq
        obtain ⟨p, hp, rfl⟩ := List.mem_map.1 hl
        obtain ⟨i, hi, rfl⟩ := List.mem_map.1 hq
        exact hb p hp i (List.mem_range.1 hi))
      (by
        intro l hl q hq
        obtain ⟨p, hp, rfl⟩ := List.mem_map.1 hl
        obtain ⟨i, hi, rfl⟩ := List.mem_map.1 hq
        exact (hx p hp i (List.mem_range.1 hi)).symm)
    have hat : ∀ p ∈ ps, ∀ i < p.vE - p.vS, g (ids p i).toNat = some (X (p.root i)) := by
      intro p hp i hi
      have := h2 _ (List.mem_map_of_mem hp) (ids p i, X (p.root i)) (List.mem_map_of_mem (List.mem_range.2 hi))
      dsimp only at this
      rw [this, hx p hp i hi]
    refine ⟨g, hg, hat, ?_⟩
    intro hcard k hk
    -- the numbers are `size` different ones below `size`
    let V := ps.flatMap fun p => (List.range (p.vE - p.vS)).map p.root
    have memV : ∀ v, v ∈ V ↔ ∃ p ∈ ps, ∃ i < p.vE - p.vS, p.root i = v := by
      intro v
      simp only [V, List.mem_flatMap, List.mem_map, List.mem_range]
    let num : ℕ × ℕ → ℕ := fun v =>
      if h : ∃ p ∈ ps, ∃ i < p.vE - p.vS, p.root i = v then (ids h.choose h.choose_spec.2.choose).toNat else 0
    have hnum : ∀ p ∈ ps, ∀ i < p.vE - p.vS, num (p.root i) = (ids p i).toNat := by
      intro p hp i hi
      have h : ∃ q ∈ ps, ∃ j < q.vE - q.vS, q.root j = p.root i := ⟨p, hp, i, hi, rfl⟩
      have e : num (p.root i) = (ids h.choose h.choose_spec.2.choose).toNat := dif_pos h
      rw [e]
      congr 1
      exact (hinj _ h.choose_spec.1 p hp _ h.choose_spec.2.choose_spec.1 i hi).2 h.choose_spec.2.choose_spec.2
    have himg : V.toFinset.image num = Finset.range size := by
      apply Finset.eq_of_subset_of_card_le
      · intro n hn
        obtain ⟨v, hv, rfl⟩ := Finset.mem_image.1 hn
        obtain ⟨p, hp, i, hi, rfl⟩ := (memV v).1 (List.mem_toFinset.1 hv)
        rw [hnum p hp i hi, Finset.mem_range]
        have := hb p hp i hi
        omega
      · rw [Finset.card_range, Finset.card_image_of_injOn]
        · exact le_of_eq hcard.symm
        · intro v hv w hw e
          obtain ⟨p, hp, i, hi, rfl⟩ := (memV v).1 (List.mem_toFinset.1 (Finset.mem_coe.1 hv))
          obtain ⟨q, hq, j, hj, rfl⟩ := (memV w).1 (List.mem_toFinset.1 (Finset.mem_coe.1 hw))
          rw [hnum p hp i hi, hnum q hq j hj] at e
          refine (hinj p hp q hq i hi j hj).1 ?_
          have := hb p hp i hi
          have := hb q hq j hj
          omega
    have hk' : k ∈ V.toFinset.image num := by rw [himg]; exact Finset.mem_range.2 hk
    obtain ⟨v, hv, e⟩ := Finset.mem_image.1 hk'
    obtain ⟨p, hp, i, hi, rfl⟩ := (memV v).1 (List.mem_toFinset.1 hv)
    rw [hnum p hp i hi] at e
    refine ⟨p, hp, i, hi, ?_, ?_⟩
    · have := hb p hp i hi
      omega
    · rw [← e]; exact hat p hp i hi

/-- Five vertices on two processes, four places. -/
example : ∃ g, coordVector 4 (twoProcs.map fun p => (List.range (p.vE - p.vS)).map fun i =>
    (((p.root i).2 : ℤ) - 2, 10 * (p.root i).2)) = some g ∧ ∀ p ∈ twoProcs, ∀ i < p.vE - p.vS,
      g (((p.root i).2 : ℤ) - 2).toNat = some (10 * (p.root i).2) := by
  obtain ⟨g, h1, h2, -⟩ := C96_coordinates 4 twoProcs (fun p i => ((p.root i).2 : ℤ) - 2) (fun v => 10 * v.2)
    (by intro p hp; simp only [twoProcs, List.mem_cons, List.not_mem_nil, or_false] at hp; rcases hp with rfl | rfl <;> decide)
    (by
      intro p hp q hq
      simp only [twoProcs, List.mem_cons, List.not_mem_nil, or_false] at hp hq
      rcases hp with rfl | rfl <;> rcases hq with rfl | rfl <;> decide)
  exact ⟨g, h1, h2⟩

/-! ## Natural numbers of cells -/

/-- C96 (natural numbers): with the natural ordering, whatever the number of components per cell and the
division of the natural vector, every cell of every process has as natural number its place in the file; so
different cells have different numbers and the same cell has the same on all processes. -/
theorem C96_natural (nf : ℕ) (hnf : 0 < nf) (owner start : ℕ → ℕ) (hs : ∀ k, start k ≤ k ∧ nf ∣ start k)
    (nat glob : ℕ → ℕ) (i : ℕ) : naturalId nf owner start nat glob i = nat (glob i) := by
  have hn : (nf : ℝ) ≠ 0 := by positivity
  unfold naturalId naturalEntry
  obtain ⟨h1, h2⟩ := hs (nat (glob i) * nf)
  have hd : nf ∣ nat (glob i) * nf - start (nat (glob i) * nf) := Nat.dvd_sub (Dvd.intro_left _ rfl) h2
  rw [if_pos (Nat.mod_eq_zero_of_dvd hd), Nat.add_sub_cancel' h1]
  push_cast
  rw [mul_div_assoc, div_self hn, mul_one, toInt]
  simp

/-- Six cells with three components each, in two parts of nine and nine entries. -/
example : naturalId 3 (fun k => k / 9) (fun k => k / 9 * 9) (fun g => 5 - g) (fun i => i + 1) 1 = 3 :=
  C96_natural 3 (by decide) _ _ (fun k => ⟨Nat.div_mul_le_self k 9, ⟨k / 9 * 3, by ring⟩⟩) _ _ 1

/-- C96 (natural numbers, violated): without the natural ordering, that is, after a refinement, in a run with
several processes all cells have the natural number -1, as all edges always have the global number -1. -/
theorem C96_numbers_violated (commSize : ℕ) (h : 2 ≤ commSize) (i : ℕ) :
    naturalIdPlain commSize i = -1 ∧ edgeGlobalId commSize i = -1 := by
  constructor
  · unfold naturalIdPlain; rw [if_neg (by omega)]
  · unfold edgeGlobalId; rw [if_neg (by omega)]

example : naturalIdPlain 4 17 = naturalIdPlain 4 3 ∧ edgeGlobalId 4 17 = -1 :=
  ⟨by rw [(C96_numbers_violated 4 (by decide) 17).1, (C96_numbers_violated 4 (by decide) 3).1],
    (C96_numbers_violated 4 (by decide) 17).2⟩

end RDy
