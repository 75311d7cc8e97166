import Verif.Lemmas.PetscRhs
import Verif.Props.Batched
import Verif.Props.LakeAtRest
import Mathlib.Tactic

/-!
C112: the right-hand side of the PETSc backend as assembled from arrays (bed elevations of hydrostatic reconstruction, flux
divergence, sources that read it) is that of edges and cells treated one after the other (`rhs` of `Model/Operator.lean`, on the mesh
that the tables describe).
-/

namespace RDy

/-! ### Specification -/

/-- The mean of the elevations of the corners of a cell. -/
noncomputable def cornerMean (V : BedTables) (c : ℕ) : ℝ :=
  ((List.range (V.count.val c)).map fun k => V.z.val (V.ids.val (V.offsets.val c + k))).sum / V.count.val c

theorem cornerMean_eq (V : BedTables) (c : ℕ) (h : V.fromFile = false) : V.zcOf c = cornerMean V c := by
  unfold BedTables.zcOf cornerMean
  rw [h]
  rfl

/-- The operators are created without an access outside a table. With hydrostatic reconstruction they hold, for every local cell, the
mean of the elevations of its corners, or the elevation of the file of cell centres if the mesh has one; without it, none. -/
theorem C112_create (C : PetscCfg) {T : Tables} {V : BedTables} {nc n ne : ℕ} (hT : T.Valid nc n ne) (hV : V.Valid nc) {Bs : List Bnd}
    (hB : ∀ B ∈ Bs, B.Valid ne) : ∃ M, createPetsc C T V Bs nc = some M ∧ M.Ready C T V Bs nc ∧
      (C.wb ≠ .hr → M.zc = none) ∧
      (C.wb = .hr → ∃ zc, M.zc = some zc ∧ zc.len = nc ∧
        ∀ c < nc, zc.val c = if V.fromFile then V.centroidZ.val c else cornerMean V c) := by
  obtain ⟨b, ss, h1, h2, h3⟩ := C108_create hT hB
  unfold createPetsc
  rw [h1, Option.bind_some, h2, Option.bind_some]
  by_cases hw : C.wb = .hr
  · obtain ⟨zc, e1, e2, e3⟩ := createZc_spec hV
    rw [if_pos hw, e1]
    refine ⟨_, rfl, ⟨h3, Or.inr ⟨hw, zc, rfl, e2, e3⟩⟩, fun h => absurd hw h, fun _ => ⟨zc, rfl, e2, fun c hc => ?_⟩⟩
    rw [e3 c hc]
    cases hf : V.fromFile with
    | true => simp [BedTables.zcOf, hf]
    | false => simpa using cornerMean_eq V c hf
  · rw [if_neg hw]
    exact ⟨_, rfl, ⟨h3, Or.inl ⟨hw, rfl⟩⟩, fun _ => rfl, fun h => absurd h hw⟩

/-- An evaluation with ready operators, whatever they keep from earlier ones: there is no access outside an array, the operators are
ready for the next one, and if the edges and cells treated one after the other have a right-hand side, that is the result. -/
theorem C112_results {P : FlowParams} {C : PetscCfg} {T : Tables} {V : BedTables} {Bs : List Bnd} {nc n ne : ℕ} (hT : T.Valid nc n ne)
    (hV : V.Valid nc) (hB : ∀ B ∈ Bs, B.Valid ne) (dt : ℝ) {u : Arr ℝ} (hu : u.len = 3 * nc) {M : PetscMem} (hM : M.Ready C T V Bs nc)
    {D : PetscVecs} (hD : D.Fits n) : ∃ M' D' f, applyPetsc P C T V Bs nc n dt M D u = some (M', D', f) ∧ M'.Ready C T V Bs nc ∧
      D'.Fits n ∧ f.len = 3 * n ∧ ∀ g,
        rhs P C.method (decide (C.wb = .hr)) (rhsMeshOf T V Bs nc) dt (srcAt D.src) D.mat.val (stateAt u) = some g → ∀ o,
          f.val (3 * o) = some (g o).m ∧ f.val (3 * o + 1) = some (g o).x ∧ f.val (3 * o + 2) = some (g o).y := by
  obtain ⟨M', D', f, h1, h2, h3, h4, h5, _⟩ := applyPetsc_spec (P := P) hT hV hB dt hu hM hD
  refine ⟨M', D', f, h1, h2, h3, h4, fun g hg o => ⟨?_, ?_, ?_⟩⟩
  · exact (h5 o 0 (by omega)).trans (rhsEntry_eq hg o 0 (by omega))
  · exact (h5 o 1 (by omega)).trans (rhsEntry_eq hg o 1 (by omega))
  · exact (h5 o 2 (by omega)).trans (rhsEntry_eq hg o 2 (by omega))

/-- A sequence of evaluations is defined, and what it gives depends on the steps, states, external sources and material properties
only: runs that start with operators and vectors of different contents get the same right-hand sides, NaNs included. -/
theorem C112_history {P : FlowParams} {C : PetscCfg} {T : Tables} {V : BedTables} {Bs : List Bnd} {nc n ne : ℕ} (hT : T.Valid nc n ne)
    (hV : V.Valid nc) (hB : ∀ B ∈ Bs, B.Valid ne) (evals : List (ℝ × Arr ℝ × Arr ℝ × Arr ℝ))
    (hu : ∀ p ∈ evals, p.2.1.len = 3 * nc ∧ p.2.2.1.len = 3 * n ∧ p.2.2.2.len = n) :
    ∀ (M₁ M₂ : PetscMem) (D₁ D₂ : PetscVecs), M₁.Ready C T V Bs nc → M₂.Ready C T V Bs nc → D₁.pv.len = 3 * n → D₂.pv.len = 3 * n →
      ∃ M₁' M₂' D₁' D₂' fs, petscEvaluations P C T V Bs nc n M₁ D₁ evals = some (M₁', D₁', fs) ∧
        petscEvaluations P C T V Bs nc n M₂ D₂ evals = some (M₂', D₂', fs) ∧ fs.length = evals.length ∧
        M₁'.Ready C T V Bs nc ∧ M₂'.Ready C T V Bs nc := by
  induction evals with
  | nil => intro M₁ M₂ D₁ D₂ h1 h2 _ _; exact ⟨M₁, M₂, D₁, D₂, [], rfl, rfl, rfl, h1, h2⟩
  | cons p rest ih =>
    intro M₁ M₂ D₁ D₂ h1 h2 p1 p2
    obtain ⟨dt, u, src, mat⟩ := p
    obtain ⟨l1, l2, l3⟩ := hu (dt, u, src, mat) (by simp)
    obtain ⟨A, E, f, a1, a2, a3, a4, a5, _⟩ := applyPetsc_spec (P := P) hT hV hB dt l1 h1 (D := { D₁ with src := src, mat := mat }) ⟨l2, l3, p1⟩
    obtain ⟨B, G, f', b1, b2, b3, b4, b5, _⟩ := applyPetsc_spec (P := P) hT hV hB dt l1 h2 (D := { D₂ with src := src, mat := mat }) ⟨l2, l3, p2⟩
    have hff : f' = f := Arr.ext_flat (nd := 3) (by omega) b4 a4 fun o i hi => by rw [b5 o i hi, a5 o i hi]
    subst hff
    obtain ⟨M₁', M₂', D₁', D₂', fs, c1, c2, c3, c4, c5⟩ := ih (fun p hp => hu p (by simp [hp])) A B E G a2 b2 a3.pv b3.pv
    refine ⟨M₁', M₂', D₁', D₂', f' :: fs, ?_, ?_, by simp [c3], c4, c5⟩
    · show (applyPetsc P C T V Bs nc n dt M₁ { D₁ with src := src, mat := mat } u).bind _ = _
      rw [a1]
      show (petscEvaluations P C T V Bs nc n A E rest).map _ = _
      rw [c1]
      rfl
    · show (applyPetsc P C T V Bs nc n dt M₂ { D₂ with src := src, mat := mat } u).bind _ = _
      rw [b1]
      show (petscEvaluations P C T V Bs nc n B G rest).map _ = _
      rw [c2]
      rfl

/-- What an evaluation leaves for output: the depth and the velocities of every owned cell in the given state, and the external
sources that it used. -/
theorem C112_output {P : FlowParams} {C : PetscCfg} {T : Tables} {V : BedTables} {Bs : List Bnd} {nc n ne : ℕ} (hT : T.Valid nc n ne)
    (hV : V.Valid nc) (hB : ∀ B ∈ Bs, B.Valid ne) (dt : ℝ) {u : Arr ℝ} (hu : u.len = 3 * nc) {M M' : PetscMem}
    (hM : M.Ready C T V Bs nc) {D D' : PetscVecs} (hD : D.Fits n) {f : Arr Num} (hinj : OwnedInj (rhsMeshOf T V Bs nc))
    (h : applyPetsc P C T V Bs nc n dt M D u = some (M', D', f)) : D'.srcInst = D.src ∧ ∀ c < nc, T.owned.val c = true →
      D'.pv.val (3 * T.l2o.val c) = u.val (3 * c) ∧
      D'.pv.val (3 * T.l2o.val c + 1) = (velocities P.tinyH P.hAnuga (stateAt u c)).u ∧
      D'.pv.val (3 * T.l2o.val c + 2) = (velocities P.tinyH P.hAnuga (stateAt u c)).v := by
  obtain ⟨M1, D1, f1, h1, h2, h3, h4, h5, h6, h7⟩ := applyPetsc_spec (P := P) hT hV hB dt hu hM hD
  rw [h] at h1
  cases h1
  refine ⟨h6, fun c hc ho => ⟨?_, h7 hinj c hc ho 1 (by omega), h7 hinj c hc ho 2 (by omega)⟩⟩
  refine (h7 hinj c hc ho 0 (by omega)).trans ?_
  show (velocities P.tinyH P.hAnuga (stateAt u c)).h = _
  unfold velocities
  split <;> rfl

/-- Still water over the bed elevations that the operator holds, in a domain without openings and without films thinner than
`tiny_h`: with hydrostatic reconstruction every entry of an owned cell is zero, whatever the operators keep, for both friction methods
and every roughness. -/
theorem C112_rest {P : FlowParams} {C : PetscCfg} {T : Tables} {V : BedTables} {Bs : List Bnd} {nc n ne : ℕ} (hT : T.Valid nc n ne)
    (hV : V.Valid nc) (hB : ∀ B ∈ Bs, B.Valid ne) {dt eta : ℝ} {u : Arr ℝ} (hu : u.len = 3 * nc) {M : PetscMem}
    (hM : M.Ready C T V Bs nc) {D : PetscVecs} (hD : D.Fits n) (hw : C.wb = .hr) (hg : 0 < P.g) (ht : 0 < P.tinyH)
    (hx : 0 < P.xqThreshold) (hdt : 0 ≤ dt) (hinj : OwnedInj (rhsMeshOf T V Bs nc)) (hv : EdgesValid (rhsMeshOf T V Bs nc))
    (hclosed : ClosedCells (rhsMeshOf T V Bs nc)) (hf : NoFilm P eta (rhsMeshOf T V Bs nc))
    (hb : RestBoundaries eta (rhsMeshOf T V Bs nc)) (hsrc : ∀ j, D.src.val j = 0)
    (hstill : ∀ c < nc, stateAt u c = restState eta (if V.fromFile then V.centroidZ.val c else cornerMean V c)) :
    ∃ M' D' f, applyPetsc P C T V Bs nc n dt M D u = some (M', D', f) ∧
      ∀ c < nc, T.owned.val c = true → ∀ i < 3, f.val (3 * T.l2o.val c + i) = some 0 := by
  obtain ⟨g, hg1, hg2⟩ := C43_rest_zero (P := P) C.method (pm := rhsMeshOf T V Bs nc) (dt := dt) D.mat.val (eta := eta)
    (src := srcAt D.src) (u := stateAt u) hg ht hx hdt hinj hv hclosed hf hb
    (fun o => by unfold srcAt; rw [hsrc, hsrc, hsrc])
    (fun c hc => by
      rw [hstill c hc]
      show restState eta _ = restState eta (V.zcOf c)
      cases hff : V.fromFile with
      | true => simp [BedTables.zcOf, hff]
      | false => rw [cornerMean_eq V c hff]; rfl)
  obtain ⟨M', D', f, h1, _, _, _, h5⟩ := C112_results (P := P) hT hV hB dt hu hM hD
  refine ⟨M', D', f, h1, fun c hc ho i hi => ?_⟩
  have he := h5 g (by rw [hw]; exact hg1) (T.l2o.val c)
  have hz : g (T.l2o.val c) = ⟨0, 0, 0⟩ := hg2 c hc ho
  rw [hz] at he
  interval_cases i
  · exact he.1
  · exact he.2.1
  · exact he.2.2

/-! ### Examples: a lake beside an island -/

/-- The two unit squares of `exSquares` as tables: edge 0 lies between them, the other edges are walls. -/
def exSqT : Tables where
  internal := ⟨1, fun _ => 0⟩
  cellIds := ⟨14, fun j => if j = 0 then 0 else if j = 1 then 1 else if j = 2 then 0 else if j = 4 then 0 else if j = 6 then 0
    else if j = 8 then 1 else if j = 10 then 1 else if j = 12 then 1 else -1⟩
  elen := ⟨7, fun _ => 1⟩
  sn := ⟨7, fun e => if e = 2 ∨ e = 5 then 1 else if e = 3 ∨ e = 6 then -1 else 0⟩
  cn := ⟨7, fun e => if e = 0 ∨ e = 4 then 1 else if e = 1 then -1 else 0⟩
  edgeOwned := ⟨7, fun _ => true⟩
  area := ⟨2, fun _ => 1⟩
  owned := ⟨2, fun _ => true⟩
  l2o := ⟨2, fun c => c⟩

/-- Six vertices at elevations −1, 1 and 5: the mean elevations are 0 and 3. -/
noncomputable def exSqV : BedTables where
  offsets := ⟨3, fun c => 4 * c⟩
  ids := ⟨8, fun j => if j < 4 then j else j - 2⟩
  count := ⟨2, fun _ => 4⟩
  z := ⟨6, fun v => if v < 2 then -1 else if v < 4 then 1 else 5⟩
  centroidZ := ⟨2, fun _ => 100⟩
  dzdx := ⟨2, fun c => if c = 0 then 2 else 4⟩
  dzdy := ⟨2, fun _ => 0⟩
  fromFile := false

/-- the walls -/
noncomputable def exSqB : Bnd := ⟨⟨6, fun e => e + 1⟩, .reflecting, ⟨18, fun _ => 0⟩⟩

/-- level 1: depth 1 in the first cell, the second is dry -/
noncomputable def exSqU : Arr ℝ := ⟨6, fun j => if j = 0 then 1 else 0⟩

theorem exSqT_valid : exSqT.Valid 2 2 7 where
  ids := by intro e _; show 0 < 7; omega
  cellIds := rfl
  elen := rfl
  sn := rfl
  cn := rfl
  area := rfl
  owned := rfl
  l2o := rfl
  left := by intro id h; interval_cases id <;> decide
  right := by intro id h; interval_cases id <;> decide
  range := by intro c h; interval_cases c <;> decide

theorem exSqV_valid : exSqV.Valid 2 where
  offsets := rfl
  count := rfl
  centroidZ := rfl
  dzdx := rfl
  dzdy := rfl
  width := by intro c _; show 4 * (c + 1) = 4 * c + 4; omega
  pos := by intro c _; show 0 < 4; omega
  ids := by intro c hc; show 4 * (c + 1) ≤ 8; omega
  z := by intro i hi; have : i < 8 := hi; show (if i < 4 then i else i - 2) < 6; split <;> omega

theorem exSqB_valid : ∀ B ∈ [exSqB], B.Valid 7 := by
  intro B hB
  rw [List.mem_singleton.mp hB]
  exact ⟨fun e he => by show e + 1 < 7; have : e < 6 := he; omega, rfl⟩

theorem exSq_internal : (rhsMeshOf exSqT exSqV [exSqB] 2).internal = (exSquares 3).internal := by
  simp [rhsMeshOf, meshOf, exSqT, exSquares, List.range_succ, Tables.leftOf, Tables.rightOf]

theorem exSq_boundary : (rhsMeshOf exSqT exSqV [exSqB] 2).boundary = (exSquares 3).boundary := by
  simp [rhsMeshOf, meshOf, exSqT, exSqB, exSquares, List.range_succ, Tables.leftOf, Bnd.cond]

theorem exSq_mean (c : ℕ) (hc : c < 2) : cornerMean exSqV c = if c = 0 then 0 else 3 := by
  interval_cases c <;> norm_num [cornerMean, exSqV, List.range_succ]

theorem exSq_zc (c : ℕ) (hc : c < 2) : (rhsMeshOf exSqT exSqV [exSqB] 2).zc c = if c = 0 then 0 else 3 :=
  (cornerMean_eq exSqV c rfl).trans (exSq_mean c hc)

theorem exSq_inj : OwnedInj (rhsMeshOf exSqT exSqV [exSqB] 2) := fun _ _ _ _ _ _ h => h

theorem exSq_edges : EdgesValid (rhsMeshOf exSqT exSqV [exSqB] 2) where
  left := by intro e he; rw [exSq_internal] at he; exact (exSquares_valid 3).left e he
  right := by intro e he; rw [exSq_internal] at he; exact (exSquares_valid 3).right e he
  cell := by intro e he; rw [exSq_boundary] at he; exact (exSquares_valid 3).cell e he
  area := by intro c _; show (1 : ℝ) ≠ 0; norm_num

theorem exSq_closed : ClosedCells (rhsMeshOf exSqT exSqV [exSqB] 2) := by
  intro c hc ho
  rw [exSq_internal, exSq_boundary]
  exact exSquares_closed 3 c hc ho

theorem exSq_film : NoFilm exParams 1 (rhsMeshOf exSqT exSqV [exSqB] 2) := by
  intro c hc
  rw [exSq_zc c hc]
  by_cases h : c = 0
  · right; rw [if_pos h]; norm_num [exParams]
  · left; rw [if_neg h]; norm_num

theorem exSq_rest : RestBoundaries 1 (rhsMeshOf exSqT exSqV [exSqB] 2) := by
  intro e he
  rw [exSq_boundary] at he
  left
  simp [exSquares] at he
  rcases he with h | h | h | h | h | h <;> subst h <;> rfl

/-- sources that vanish, Manning's 0.03, and rubbish in the vectors for output -/
noncomputable def exSqD : PetscVecs := ⟨⟨6, fun _ => 0⟩, ⟨2, fun _ => 0.03⟩, ⟨6, fun _ => 17⟩, ⟨6, fun _ => 5⟩⟩

theorem exSqD_fits : exSqD.Fits 2 := ⟨rfl, rfl, rfl⟩

/-- the elevations that the operators hold: 0 and 3 -/
example : ∃ M zc, createPetsc ⟨.hr, .semiImplicit⟩ exSqT exSqV [exSqB] 2 = some M ∧ M.zc = some zc ∧ zc.val 0 = 0 ∧ zc.val 1 = 3 := by
  obtain ⟨M, h1, _, _, h4⟩ := C112_create ⟨.hr, .semiImplicit⟩ exSqT_valid exSqV_valid exSqB_valid
  obtain ⟨zc, e1, _, e3⟩ := h4 rfl
  refine ⟨M, zc, h1, e1, ?_, ?_⟩
  · refine (e3 0 (by omega)).trans ?_
    exact (exSq_mean 0 (by omega)).trans (by simp)
  · refine (e3 1 (by omega)).trans ?_
    exact (exSq_mean 1 (by omega)).trans (by simp)

theorem exSq_still (c : ℕ) (hc : c < 2) :
    stateAt exSqU c = restState 1 (if exSqV.fromFile then exSqV.centroidZ.val c else cornerMean exSqV c) := by
  rw [show (if exSqV.fromFile then exSqV.centroidZ.val c else cornerMean exSqV c) = cornerMean exSqV c from rfl, exSq_mean c hc]
  interval_cases c <;> norm_num [stateAt, exSqU, restState]

/-- the lake stays at rest beside the island -/
example : ∃ M M' D' f, createPetsc ⟨.hr, .xq2018⟩ exSqT exSqV [exSqB] 2 = some M ∧
    applyPetsc exParams ⟨.hr, .xq2018⟩ exSqT exSqV [exSqB] 2 2 0.5 M exSqD exSqU = some (M', D', f) ∧
    ∀ j < 6, f.val j = some 0 := by
  obtain ⟨M, h1, h2, _⟩ := C112_create ⟨.hr, .xq2018⟩ exSqT_valid exSqV_valid exSqB_valid
  obtain ⟨M', D', f, h3, h4⟩ := C112_rest (P := exParams) (dt := 0.5) (eta := 1) (u := exSqU) exSqT_valid exSqV_valid exSqB_valid rfl h2
    exSqD_fits rfl (by norm_num [exParams]) (by norm_num [exParams]) (by norm_num [exParams]) (by norm_num) exSq_inj exSq_edges exSq_closed
    exSq_film exSq_rest (fun _ => rfl) exSq_still
  refine ⟨M, M', D', f, h1, h3, fun j hj => ?_⟩
  have := h4 (j / 3) (by omega) rfl (j % 3) (by omega)
  rwa [show 3 * exSqT.l2o.val (j / 3) + j % 3 = j from Nat.div_add_mod j 3] at this

/-- the right-hand side of a single edge and cell after the other exists in this case, so the results are determined -/
example : ∃ g, rhs exParams .xq2018 true (rhsMeshOf exSqT exSqV [exSqB] 2) 0.5 (srcAt exSqD.src) exSqD.mat.val (stateAt exSqU) = some g := by
  obtain ⟨g, hg, _⟩ := C43_rest_zero (P := exParams) .xq2018 (pm := rhsMeshOf exSqT exSqV [exSqB] 2) (dt := 0.5) exSqD.mat.val (eta := 1)
    (src := srcAt exSqD.src) (u := stateAt exSqU) (by norm_num [exParams]) (by norm_num [exParams]) (by norm_num [exParams]) (by norm_num)
    exSq_inj exSq_edges exSq_closed exSq_film exSq_rest (fun o => rfl)
    (fun c hc => by
      rw [exSq_still c hc, exSq_zc c hc]
      rw [show (if exSqV.fromFile then exSqV.centroidZ.val c else cornerMean exSqV c) = cornerMean exSqV c from rfl, exSq_mean c hc])
  exact ⟨g, hg⟩

/-- two evaluations, with other sources the second time, of operators that were used before and of new ones -/
example {M₁ M₂ : PetscMem} (h1 : M₁.Ready ⟨.none, .semiImplicit⟩ exSqT exSqV [exSqB] 2)
    (h2 : M₂.Ready ⟨.none, .semiImplicit⟩ exSqT exSqV [exSqB] 2) : ∃ M₁' M₂' D₁' D₂' fs,
    petscEvaluations exParams ⟨.none, .semiImplicit⟩ exSqT exSqV [exSqB] 2 2 M₁ exSqD
      [(1, exSqU, exSqD.src, exSqD.mat), (0.5, exSqU, ⟨6, fun j => j⟩, exSqD.mat)] = some (M₁', D₁', fs) ∧
    petscEvaluations exParams ⟨.none, .semiImplicit⟩ exSqT exSqV [exSqB] 2 2 M₂ { exSqD with pv := ⟨6, fun _ => -4⟩ }
      [(1, exSqU, exSqD.src, exSqD.mat), (0.5, exSqU, ⟨6, fun j => j⟩, exSqD.mat)] = some (M₂', D₂', fs) ∧ fs.length = 2 := by
  obtain ⟨a, b, c, d, fs, e1, e2, e3, _⟩ := C112_history (P := exParams) exSqT_valid exSqV_valid exSqB_valid
    [(1, exSqU, exSqD.src, exSqD.mat), (0.5, exSqU, ⟨6, fun j => j⟩, exSqD.mat)]
    (by
      intro p hp
      rcases List.mem_cons.mp hp with h | h
      · subst h; exact ⟨rfl, rfl, rfl⟩
      · rw [List.mem_singleton.mp h]; exact ⟨rfl, rfl, rfl⟩)
    M₁ M₂ exSqD { exSqD with pv := ⟨6, fun _ => -4⟩ } h1 h2 rfl rfl
  exact ⟨a, b, c, d, fs, e1, e2, e3⟩

/-- what the evaluation leaves for output: depth 1 and 0 in the two cells -/
example {M M' : PetscMem} {D' : PetscVecs} {f : Arr Num} (hM : M.Ready ⟨.hr, .xq2018⟩ exSqT exSqV [exSqB] 2)
    (h : applyPetsc exParams ⟨.hr, .xq2018⟩ exSqT exSqV [exSqB] 2 2 0.5 M exSqD exSqU = some (M', D', f)) :
    D'.pv.val 0 = 1 ∧ D'.pv.val 3 = 0 := by
  obtain ⟨_, h2⟩ := C112_output (P := exParams) exSqT_valid exSqV_valid exSqB_valid 0.5 (u := exSqU) rfl hM exSqD_fits exSq_inj h
  refine ⟨(h2 0 (by omega) rfl).1.trans ?_, (h2 1 (by omega) rfl).1.trans ?_⟩ <;> simp [exSqU]

end RDy
