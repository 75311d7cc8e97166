import Verif.Model.BoundaryIO
import Verif.Props.Data

/-!
C75: values given or received for the edges of a boundary by position mean the same edge everywhere: in the
getters of the library, in the setters, in the flux operators and in the time series.
-/

namespace RDy

theorem checkBoundary_ok {bnds : List (List ℕ)} {b : ℕ} {es : List ℕ} (h : bnds[b]? = some es) :
    checkBoundary bnds b es.length = .ok es := by
  have hb : b < bnds.length := (List.getElem?_eq_some_iff.mp h).1
  unfold checkBoundary
  rw [if_neg (by omega), if_neg (by omega), Int.toNat_natCast, h]
  simp

theorem petscDirichletEdges_get (m : BndMesh) (es : List ℕ) (d : ℕ → ℝ) (i e : ℕ) (he : es[i]? = some e) :
    (petscDirichletEdges m es d)[i]? = some ⟨m.cellOf e, m.len e, m.sn e, m.cn e,
      .dirichlet ⟨d (3 * i), d (3 * i + 1), d (3 * i + 2)⟩⟩ := by
  simp [petscDirichletEdges, List.getElem?_map, List.getElem?_zipIdx, he]

/-- C75 (PETSc, and the part of CEED that does not concern fluxes). Suppose that the Dirichlet values of a
boundary have been set, without tracers. Then, for each position `i`, with `e` the edge there: the getters
report at `i` the centroid of `e` and the natural ID and centroid of one cell; the flux operators treat `e`
as an edge of that cell, with `e`'s length and normal, and with the state of the `i`-th triple of the values
given outside. The CEED operator has exactly the edges among these that the process owns. -/
theorem C75_dirichlet (m : BndMesh) (bnds : List (List ℕ)) (infos : List BndInfo) (b : ℕ) (es : List ℕ)
    (info : BndInfo) (hb : bnds[b]? = some es) (hi : infos[b]? = some info)
    (hn : info.numEdges = es.length) (hd : info.flow = .dirichlet) (values : List ℝ) (data : ℕ → ℕ → ℝ) :
    ∃ d ids, setFlowDirichlet ⟨0, false, false⟩ infos b es.length 3 values data = .ok d ∧
      getBoundaryNaturalIds m bnds b es.length = .ok ids ∧
      (∀ k, ∃ xe xc, getBoundaryCentroids m bnds b es.length true k = .ok xe ∧
        getBoundaryCentroids m bnds b es.length false k = .ok xc ∧
        ∀ (i e : ℕ), es[i]? = some e → ∃ E : BEdge, (petscDirichletEdges m es (d b))[i]? = some E ∧
          xe[i]? = some (m.edgeCentroid e k) ∧ xc[i]? = some (m.cellCentroid E.cell k)) ∧
      (∀ (i e : ℕ), es[i]? = some e → ∃ E : BEdge, (petscDirichletEdges m es (d b))[i]? = some E ∧
        E.len = m.len e ∧ E.sn = m.sn e ∧ E.cn = m.cn e ∧ ids[i]? = some (m.naturalId E.cell) ∧
        E.bc = BCond.dirichlet ⟨values.getD (3 * i) 0, values.getD (3 * i + 1) 0, values.getD (3 * i + 2) 0⟩) ∧
      ceedDirichletEdges m es (d b) =
        ((es.zip (petscDirichletEdges m es (d b))).filter fun p => m.edgeOwned p.1).map Prod.snd := by
  obtain ⟨d, h1, h2, -, -⟩ := C27_set_partial ⟨0, false, false⟩ infos .flow b info hi
    (by simp [BKind.cond, hd]) trivial values data
  have hset : setFlowDirichlet ⟨0, false, false⟩ infos b es.length 3 values data = .ok d := by
    rw [← hn]; exact h1
  have hval : ∀ i < es.length, ∀ c < 3, d b (3 * i + c) = values.getD (3 * i + c) 0 := by
    intro i hi' c hc
    have := h2 i (by rw [hn]; exact hi') c hc
    simpa [BKind.comps, Phys.total] using this
  refine ⟨d, es.map fun e => m.naturalId (m.cellOf e), hset, ?_, ?_, ?_, ?_⟩
  · unfold getBoundaryNaturalIds
    rw [checkBoundary_ok hb]
  · intro k
    refine ⟨es.map fun e => m.edgeCentroid e k, es.map fun e => m.cellCentroid (m.cellOf e) k, ?_, ?_, ?_⟩
    · unfold getBoundaryCentroids
      rw [checkBoundary_ok hb]
      simp
    · unfold getBoundaryCentroids
      rw [checkBoundary_ok hb]
      simp
    · intro i e he
      exact ⟨_, petscDirichletEdges_get m es (d b) i e he, by simp [he], by simp [he]⟩
  · intro i e he
    have hlt : i < es.length := (List.getElem?_eq_some_iff.mp he).1
    refine ⟨_, petscDirichletEdges_get m es (d b) i e he, rfl, rfl, rfl, by simp [he], ?_⟩
    rw [hval i hlt 1 (by omega), hval i hlt 2 (by omega)]
    have := hval i hlt 0 (by omega)
    rw [add_zero] at this
    rw [this]
  · simp only [ceedDirichletEdges, ceedElements, petscDirichletEdges]
    have : es.zip (es.zipIdx.map fun p => (⟨m.cellOf p.1, m.len p.1, m.sn p.1, m.cn p.1,
        .dirichlet ⟨d b (3 * p.2), d b (3 * p.2 + 1), d b (3 * p.2 + 2)⟩⟩ : BEdge)) =
        es.zipIdx.map fun p => (p.1, (⟨m.cellOf p.1, m.len p.1, m.sn p.1, m.cn p.1,
        .dirichlet ⟨d b (3 * p.2), d b (3 * p.2 + 1), d b (3 * p.2 + 2)⟩⟩ : BEdge)) := by
      apply List.ext_getElem?
      intro i
      simp only [List.getElem?_map, List.getElem?_zipIdx]
      cases h : es[i]? with
      | none => simp [List.zip, List.getElem?_zipWith, h]
      | some e => simp [List.zip, List.getElem?_zipWith, h]
    rw [this, List.filter_map, List.map_map]
    rfl

/-- the mesh of the examples: two boundary edges, of cells 7 and 4 -/
noncomputable def exBndMesh (own : ℕ → Bool) : BndMesh where
  cellOf e := if e = 2 then 7 else 4
  edgeOwned := own
  cellOwned c := own (if c = 7 then 2 else 5)
  edgeCentroid e k := e + k
  cellCentroid c k := c + k
  naturalId c := 100 + c
  len _ := 3
  sn _ := 0
  cn _ := 1

example : ∃ d ids, setFlowDirichlet ⟨0, false, false⟩ [⟨2, .dirichlet, none, none, none⟩] 0 2 3
      [1, 0, 0, 2, 0.5, 0] (fun _ _ => 0) = .ok d ∧
    getBoundaryNaturalIds (exBndMesh fun _ => true) [[2, 5]] 0 2 = .ok ids ∧ ids[1]? = some 104 ∧
    ∃ E, (petscDirichletEdges (exBndMesh fun _ => true) [2, 5] (d 0))[1]? = some E ∧ E.cell = 4 := by
  obtain ⟨d, ids, h1, h2, -, h4, -⟩ := C75_dirichlet (exBndMesh fun _ => true) [[2, 5]]
    [⟨2, .dirichlet, none, none, none⟩] 0 [2, 5] ⟨2, .dirichlet, none, none, none⟩ rfl rfl rfl rfl
    [1, 0, 0, 2, 0.5, 0] (fun _ _ => 0)
  obtain ⟨E, h5, -, -, -, h6, -⟩ := h4 1 5 rfl
  have hE : E.cell = 4 := by
    simp [petscDirichletEdges, exBndMesh] at h5
    rw [← h5]
  rw [hE] at h6
  exact ⟨d, ids, h1, h2, by simpa [exBndMesh] using h6, E, h5, hE⟩

/-- C75 (errors): a getter called for a boundary that does not exist, or with an array of the wrong size,
reports an error. -/
theorem C75_errors (m : BndMesh) (bnds : List (List ℕ)) (b : ℤ) (size : ℕ) (forEdge : Bool) (k : ℕ)
    (h : b < 0 ∨ (bnds.length : ℤ) ≤ b ∨ ∃ es, bnds[b.toNat]? = some es ∧ es.length ≠ size) :
    getBoundaryNaturalIds m bnds b size = .error ∧
      getBoundaryCentroids m bnds b size forEdge k = .error := by
  have hc : checkBoundary bnds b size = .error := by
    unfold checkBoundary
    by_cases h1 : (bnds.length : ℤ) ≤ b
    · rw [if_pos h1]
    · rw [if_neg h1]
      by_cases h2 : b < 0
      · rw [if_pos h2]
      · rw [if_neg h2]
        rcases h with h | h | ⟨es, h3, h4⟩
        · exact absurd h h2
        · exact absurd h h1
        · rw [h3]
          simp [h4]
  unfold getBoundaryNaturalIds getBoundaryCentroids
  rw [hc]
  exact ⟨rfl, rfl⟩

example : getBoundaryNaturalIds (exBndMesh fun _ => true) [[2, 5]] 0 3 = .error :=
  (C75_errors _ [[2, 5]] 0 3 true 0 (Or.inr (Or.inr ⟨[2, 5], rfl, by simp⟩))).1

/-! ### Fluxes in the time series -/

/-- Specification: what should be recorded for a boundary: the mass flux of each edge whose cell is owned,
times its length. -/
def recordSpec (m : BndMesh) (es : List ℕ) (f : ℕ → Flux) : List ℝ :=
  (es.filter fun e => m.cellOwned (m.cellOf e)).map fun e => m.len e * (f e).m

theorem recordSpec_zipIdx (m : BndMesh) (es : List ℕ) (f : ℕ → Flux) :
    recordSpec m es f = (es.zipIdx.filter fun p => m.cellOwned (m.cellOf p.1)).map fun p =>
      m.len p.1 * (f p.1).m := by
  have : es = es.zipIdx.map Prod.fst := by simp
  conv_lhs => rw [this]
  unfold recordSpec
  rw [List.filter_map, List.map_map]
  rfl

/-- C75 (PETSc). The fluxes recorded are those of the edges they are recorded for. -/
theorem C75_petsc_fluxes (m : BndMesh) (es : List ℕ) (f : ℕ → Flux) :
    recordMass m es (extractPetsc es f) = recordSpec m es f := by
  rw [recordSpec_zipIdx]
  unfold recordMass
  apply List.map_congr_left
  intro p hp
  have hp' := (List.mem_filter.mp hp).1
  rw [List.mem_zipIdx_iff_getElem?] at hp'
  obtain ⟨hlt, he⟩ := List.getElem?_eq_some_iff.mp hp'
  congr 2
  simp [extractPetsc, List.getD, hlt, he]

example : recordMass (exBndMesh fun e => e != 2) [2, 5]
    (extractPetsc [2, 5] fun e => ⟨e, 0, 0⟩) = [15] := by
  rw [C75_petsc_fluxes]
  norm_num [recordSpec, exBndMesh]

/-- C75 (CEED). The fluxes recorded are those of the edges they are recorded for, whatever the fluxes are, if
and only if on the boundary no edge of another process precedes an edge of this process. The code does
not establish this order: it keeps the numbering of DMPlex. (An edge is owned by the process that owns its
cell; lengths are positive.) -/
theorem C75_ceed_fluxes_partial (m : BndMesh) (es : List ℕ)
    (hown : ∀ e ∈ es, m.edgeOwned e = m.cellOwned (m.cellOf e)) (hlen : ∀ e ∈ es, 0 < m.len e) :
    (∀ f, recordMass m es (extractCeed m es f) = recordSpec m es f) ↔
      es.Pairwise fun a b => m.edgeOwned b = true → m.edgeOwned a = true := by
  constructor
  · intro h
    by_contra hne
    have hone := h fun _ => ⟨1, 0, 0⟩
    rw [recordSpec_zipIdx] at hone
    unfold recordMass at hone
    rw [List.map_inj_left] at hone
    -- every owned edge stands at a position below the number of owned edges
    have hpos : ∀ i e, es[i]? = some e → m.edgeOwned e = true → i < (ceedElements m es).length := by
      intro i e he ho
      by_contra hlt
      have hmem : e ∈ es := List.mem_of_getElem? he
      have := hone (e, i) (List.mem_filter.mpr ⟨List.mem_zipIdx_iff_getElem?.mpr he, by
        rw [← hown e hmem]; simpa using ho⟩)
      obtain ⟨hi, -⟩ := List.getElem?_eq_some_iff.mp he
      have hz : ((extractCeed m es fun _ => ⟨1, 0, 0⟩).getD i Flux.zero) = Flux.zero := by
        simp only [extractCeed, ceedFluxVector, List.getD_eq_getElem?_getD, List.getElem?_map,
          List.getElem?_range hi, Option.map_some, Option.getD_some]
        rw [List.getElem?_eq_none (by omega)]
        rfl
      simp only at this
      rw [hz] at this
      simp only [Flux.zero] at this
      have := hlen e hmem
      linarith
    -- so all positions below that number are owned
    apply hne
    rw [List.pairwise_iff_getElem]
    intro i j hi hj hij ho
    by_contra hu
    have hcount : (ceedElements m es).length =
        ((List.range es.length).filter fun k => (es[k]?.map m.edgeOwned).getD false).length := by
      have : (ceedElements m es).map Prod.snd =
          (List.range es.length).filter fun k => (es[k]?.map m.edgeOwned).getD false := by
        unfold ceedElements
        have e1 : (List.range es.length) = es.zipIdx.map Prod.snd := by
          rw [List.zipIdx_map_snd]
          simp [List.range_eq_range']
        rw [e1, List.filter_map]
        congr 1
        apply List.filter_congr
        intro p hp
        rw [List.mem_zipIdx_iff_getElem?] at hp
        simp [hp]
      rw [← this, List.length_map]
    have hsub : ((List.range es.length).filter fun k => (es[k]?.map m.edgeOwned).getD false).toFinset ⊆
        (Finset.range (ceedElements m es).length).erase i := by
      intro k hk
      rw [List.mem_toFinset, List.mem_filter, List.mem_range] at hk
      obtain ⟨hk1, hk2⟩ := hk
      rw [List.getElem?_eq_getElem hk1] at hk2
      simp only [Option.map_some, Option.getD_some] at hk2
      rw [Finset.mem_erase, Finset.mem_range]
      refine ⟨?_, hpos k _ (List.getElem?_eq_getElem hk1) hk2⟩
      rintro rfl
      exact hu hk2
    have hcard := Finset.card_le_card hsub
    rw [List.toFinset_card_of_nodup (List.nodup_range.filter _), ← hcount, Finset.card_erase_of_mem,
      Finset.card_range] at hcard
    · have := hpos j _ (List.getElem?_eq_getElem hj) ho
      omega
    · rw [Finset.mem_range]
      have := hpos j _ (List.getElem?_eq_getElem hj) ho
      omega
  · intro hp f
    rw [recordSpec_zipIdx]
    unfold recordMass
    apply List.map_congr_left
    intro p hpm
    obtain ⟨hp1, hp2⟩ := List.mem_filter.mp hpm
    rw [List.mem_zipIdx_iff_getElem?] at hp1
    obtain ⟨hlt, he⟩ := List.getElem?_eq_some_iff.mp hp1
    have hmem : p.1 ∈ es := List.mem_of_getElem? hp1
    have hpo : m.edgeOwned p.1 = true := by rw [hown _ hmem]; exact hp2
    -- the owned edge at position `i` is element `i`
    have key : ∀ (l : List ℕ) (n i : ℕ) (e : ℕ),
        l.Pairwise (fun a b => m.edgeOwned b = true → m.edgeOwned a = true) → l[i]? = some e →
        m.edgeOwned e = true → ((l.zipIdx n).filter fun q => m.edgeOwned q.1)[i]? = some (e, n + i) := by
      intro l
      induction l with
      | nil => intro n i e _ h; simp at h
      | cons a l ih =>
        intro n i e hpw hl ho
        rw [List.pairwise_cons] at hpw
        have ha : m.edgeOwned a = true := by
          cases i with
          | zero => simp at hl; rw [hl]; exact ho
          | succ i =>
            rw [List.getElem?_cons_succ] at hl
            exact hpw.1 e (List.mem_of_getElem? hl) ho
        rw [List.zipIdx_cons, List.filter_cons]
        simp only [ha, if_true]
        cases i with
        | zero =>
          simp only [List.getElem?_cons_zero, Option.some.injEq] at hl ⊢
          rw [hl]; rfl
        | succ i =>
          rw [List.getElem?_cons_succ] at hl ⊢
          rw [ih (n + 1) i e hpw.2 hl ho]
          congr 2
          omega
    have hk := key es 0 p.2 p.1 hp hp1 hpo
    congr 2
    simp only [extractCeed, ceedFluxVector, List.getD_eq_getElem?_getD, List.getElem?_map,
      List.getElem?_range hlt, Option.map_some, Option.getD_some, ceedElements]
    rw [hk]
    rfl

/-- C75 (disagreement, CEED). A boundary whose first edge belongs to a cell of another process (boundaries
from face sets keep such edges) loses its flux: the flux through the second edge is stored first, and what
is recorded for the second edge is 0. -/
theorem C75_ceed_fluxes_violated (q : ℝ) :
    recordMass (exBndMesh fun e => e != 2) [2, 5]
        (extractCeed (exBndMesh fun e => e != 2) [2, 5] fun e => ⟨if e = 5 then q else 0, 0, 0⟩) = [0] ∧
      recordSpec (exBndMesh fun e => e != 2) [2, 5] (fun e => ⟨if e = 5 then q else 0, 0, 0⟩) = [3 * q] := by
  constructor
  · simp [recordMass, extractCeed, ceedFluxVector, ceedElements, exBndMesh, List.range_succ, Flux.zero]
  · simp [recordSpec, exBndMesh]

example : ∀ f, recordMass (exBndMesh fun e => e != 5) [2, 5]
    (extractCeed (exBndMesh fun e => e != 5) [2, 5] f) = recordSpec (exBndMesh fun e => e != 5) [2, 5] f :=
  (C75_ceed_fluxes_partial (exBndMesh fun e => e != 5) [2, 5] (by simp [exBndMesh])
    (by intro e _; norm_num [exBndMesh])).mpr (by simp [exBndMesh])

end RDy
