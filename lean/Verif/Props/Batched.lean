import Verif.Lemmas.BatchedRun
import Mathlib.Tactic

/-!
C108: the flux operators keep arrays from one evaluation to the next, and what they compute does not depend on what those
arrays hold. The specification is the model that treats one edge after the other without any memory (`applyInterior`,
`applyBoundary`, `tracerDivergence`), on the mesh that the tables describe (`meshOf`).
-/

namespace RDy

/-! ### Shallow water -/

/-- The operators of a run can be created without an access outside the tables, and what they keep then is ready: the arrays have
the lengths that evaluations need and the normals of the edges are in them. -/
theorem C108_create {T : Tables} {nc n ne : ℕ} (hT : T.Valid nc n ne) {Bs : List Bnd} (hB : ∀ B ∈ Bs, B.Valid ne) :
    ∃ b ss, createInteriorB T = some b ∧ Bs.mapM (createBoundaryB T) = some ss ∧ (⟨b, ss⟩ : FluxMem).Ready T Bs := by
  obtain ⟨b, h1, h2, h3⟩ := createInteriorB_spec hT
  have : ∃ ss, Bs.mapM (createBoundaryB T) = some ss ∧ List.Forall₂ (fun s B => BState.Ready s T B) ss Bs := by
    induction Bs with
    | nil => exact ⟨[], rfl, List.Forall₂.nil⟩
    | cons B Bs ih =>
      obtain ⟨s, e1, e2, _⟩ := createBoundaryB_spec hT (hB B (by simp))
      obtain ⟨ss, e3, e4⟩ := ih fun B' hB' => hB B' (by simp [hB'])
      exact ⟨s :: ss, by rw [List.mapM_cons, e1, e3]; rfl, List.Forall₂.cons e2 e4⟩
  obtain ⟨ss, e1, e2⟩ := this
  exact ⟨b, ss, h1, e1, ⟨h2, h3, e2⟩⟩

/-- An evaluation with ready memory, whatever the arrays hold besides the normals: there is no access outside an array, the memory
is ready for the next one, and the right-hand side is that of the edges treated one after the other. -/
theorem C108_results {P : FlowParams} {T : Tables} {nc n ne : ℕ} (hT : T.Valid nc n ne) {Bs : List Bnd}
    (hB : ∀ B ∈ Bs, B.Valid ne) {dt : ℝ} {u : Arr ℝ} (hu : u.len = 3 * nc) {M : FluxMem} (hM : M.Ready T Bs)
    {g : ℕ → Flux} (hg : (applyInterior P (meshOf T Bs nc) (stateAt u) fun _ => Flux.zero).bind
      (applyBoundary P (meshOf T Bs nc) (stateAt u)) = some g) :
    ∃ M' f, fluxesB P T Bs n dt M u = some (M', f) ∧ M'.Ready T Bs ∧ f.len = 3 * n ∧
      ∀ o < n, f.val (3 * o) = some (g o).m ∧ f.val (3 * o + 1) = some (g o).x ∧ f.val (3 * o + 2) = some (g o).y := by
  obtain ⟨M', f, h1, h2, h3, h4, _⟩ := fluxesB_spec (P := P) (dt := dt) hT hB hu hM
  refine ⟨M', f, h1, h2, h3, fun o _ => ⟨?_, ?_, ?_⟩⟩
  · rw [← Nat.add_zero (3 * o), h4 o 0 (by omega), fluxEntry_eq hg]; rfl
  · rw [h4 o 1 (by omega), fluxEntry_eq hg]; rfl
  · rw [h4 o 2 (by omega), fluxEntry_eq hg]; rfl

/-- A sequence of evaluations is defined, and what it gives depends on the states only: two runs whose operators keep different
things (because one has evaluated other states before, or was started anew) give the same vectors, NaNs included. -/
theorem C108_history {P : FlowParams} {T : Tables} {nc n ne : ℕ} (hT : T.Valid nc n ne) {Bs : List Bnd}
    (hB : ∀ B ∈ Bs, B.Valid ne) (evals : List (ℝ × Arr ℝ)) (hu : ∀ p ∈ evals, p.2.len = 3 * nc) :
    ∀ (M₁ M₂ : FluxMem), M₁.Ready T Bs → M₂.Ready T Bs → ∃ M₁' M₂' fs,
      evaluationsB P T Bs n M₁ evals = some (M₁', fs) ∧ evaluationsB P T Bs n M₂ evals = some (M₂', fs) ∧
      fs.length = evals.length ∧ M₁'.Ready T Bs ∧ M₂'.Ready T Bs := by
  induction evals with
  | nil => intro M₁ M₂ h1 h2; exact ⟨M₁, M₂, [], rfl, rfl, rfl, h1, h2⟩
  | cons p rest ih =>
    intro M₁ M₂ h1 h2
    obtain ⟨dt, u⟩ := p
    have hl : u.len = 3 * nc := hu (dt, u) (by simp)
    obtain ⟨A, f, a1, a2, a3, a4, _⟩ := fluxesB_spec (P := P) (dt := dt) hT hB hl h1
    obtain ⟨B, f', b1, b2, b3, b4, _⟩ := fluxesB_spec (P := P) (dt := dt) hT hB hl h2
    have hff : f' = f := Arr.ext_flat (nd := 3) (by omega) b3 a3 fun o i hi => by rw [b4 o i hi, a4 o i hi]
    subst hff
    obtain ⟨M₁', M₂', fs, c1, c2, c3, c4, c5⟩ := ih (fun p hp => hu p (by simp [hp])) A B a2 b2
    refine ⟨M₁', M₂', f' :: fs, ?_, ?_, by simp [c3], c4, c5⟩
    · show (fluxesB P T Bs n dt M₁ u).bind _ = _
      rw [a1]
      show (evaluationsB P T Bs n A rest).map _ = _
      rw [c1]
      rfl
    · show (fluxesB P T Bs n dt M₂ u).bind _ = _
      rw [b1]
      show (evaluationsB P T Bs n B rest).map _ = _
      rw [c2]
      rfl

/-- What an evaluation leaves in the vectors of boundary fluxes: for every boundary and each of its edges whose cell is owned, the
flux through that edge in the given state, and the accumulated flux grows by the step times that flux. -/
theorem C108_boundary_fluxes {P : FlowParams} {T : Tables} {nc n ne : ℕ} (hT : T.Valid nc n ne) {Bs : List Bnd}
    (hB : ∀ B ∈ Bs, B.Valid ne) {dt : ℝ} {u : Arr ℝ} (hu : u.len = 3 * nc) {M M' : FluxMem} {f : Arr Num} (hM : M.Ready T Bs)
    (h : fluxesB P T Bs n dt M u = some (M', f)) {k : ℕ} {B : Bnd} {s : BState} (hk : Bs[k]? = some B)
    (hs : M.bnds[k]? = some s) :
    ∃ s', M'.bnds[k]? = some s' ∧ ∀ e < B.ids.len, T.owned.val (T.leftOf (B.ids.val e)) = true → ∀ i < 3,
      s'.fluxes.val (3 * e + i) = (roeFlux P.g
        (boundaryStates P.g P.tinyH P.hAnuga (B.cond e) (stateAt u (T.leftOf (B.ids.val e))) (T.sn.val (B.ids.val e))
          (T.cn.val (B.ids.val e))).1
        (boundaryStates P.g P.tinyH P.hAnuga (B.cond e) (stateAt u (T.leftOf (B.ids.val e))) (T.sn.val (B.ids.val e))
          (T.cn.val (B.ids.val e))).2 (T.sn.val (B.ids.val e)) (T.cn.val (B.ids.val e))).map (fun F => F.1.comp i) ∧
      s'.accum.val (3 * e + i) = (s.accum.val (3 * e + i)).add ((s'.fluxes.val (3 * e + i)).scale dt) := by
  obtain ⟨M1, f1, h1, _, _, _, h5⟩ := fluxesB_spec (P := P) (dt := dt) hT hB hu hM
  rw [h1] at h
  cases h
  obtain ⟨s', e1, e2⟩ := h5 k B s hk hs
  exact ⟨s', e1, e2⟩

theorem foldl_add_eq_none {α : Type} (t : α → Num) : ∀ (l : List α) (a : Num),
    l.foldl (fun (a : Num) (x : α) => a.add (t x)) a = none ↔ a = none ∨ ∃ x ∈ l, t x = none := by
  intro l
  induction l with
  | nil => intro a; simp
  | cons x l ih =>
    intro a
    rw [List.foldl_cons, ih]
    have : a.add (t x) = none ↔ a = none ∨ t x = none := by
      cases a <;> cases t x <;> simp [Num.add]
    rw [this]
    simp [or_assoc]

theorem recv_eq_none {w : Bool} {o' o : ℕ} {x : Num} : recv w o' o x = none ↔ (w = true ∧ o' = o) ∧ x = none := by
  unfold recv
  split <;> simp_all

theorem bSum_eq_none {P : FlowParams} {T : Tables} {u : Arr ℝ} {o i : ℕ} : ∀ (Bs : List Bnd) (a : Num),
    bSum P T Bs u o i a = none ↔ a = none ∨ ∃ B ∈ Bs, ∃ e < B.ids.len, bEdgeTerm P T B u o i e = none := by
  intro Bs
  induction Bs with
  | nil => intro a; simp [bSum]
  | cons B Bs ih =>
    intro a
    show bSum P T Bs u o i ((List.range B.ids.len).foldl (fun (a : Num) (e : ℕ) => a.add (bEdgeTerm P T B u o i e)) a) = none ↔ _
    rw [ih, foldl_add_eq_none]
    simp [or_assoc]

/-- the flux that internal edge `e` uses between its cells -/
noncomputable def internalFlux (P : FlowParams) (T : Tables) (u : Arr ℝ) (e r : ℕ) : Option Flux :=
  usedFlux P.g P.tinyH (velocities P.tinyH P.hAnuga (stateAt u (T.leftOf (T.internal.val e))))
    (velocities P.tinyH P.hAnuga (stateAt u r)) (T.sn.val (T.internal.val e)) (T.cn.val (T.internal.val e))

/-- the flux that edge `e` of a boundary uses -/
noncomputable def boundaryFlux (P : FlowParams) (T : Tables) (B : Bnd) (u : Arr ℝ) (e : ℕ) : Option Flux :=
  usedFlux P.g P.tinyH
    (boundaryStates P.g P.tinyH P.hAnuga (B.cond e) (stateAt u (T.leftOf (B.ids.val e))) (T.sn.val (B.ids.val e))
      (T.cn.val (B.ids.val e))).1
    (boundaryStates P.g P.tinyH P.hAnuga (B.cond e) (stateAt u (T.leftOf (B.ids.val e))) (T.sn.val (B.ids.val e))
      (T.cn.val (B.ids.val e))).2 (T.sn.val (B.ids.val e)) (T.cn.val (B.ids.val e))

/-- local cell `c` is owned and has number `o` -/
def Tables.isOwned (T : Tables) (c o : ℕ) : Prop := T.owned.val c = true ∧ T.l2o.val c = o

/-- A NaN does not spread: the entries of an owned cell are NaN exactly if one of the cell's own edges has no flux, whatever
happened at the other edges and at earlier evaluations. -/
theorem C108_nan {P : FlowParams} {T : Tables} {nc n ne : ℕ} (hT : T.Valid nc n ne) {Bs : List Bnd}
    (hB : ∀ B ∈ Bs, B.Valid ne) {dt : ℝ} {u : Arr ℝ} (hu : u.len = 3 * nc) {M M' : FluxMem} {f : Arr Num} (hM : M.Ready T Bs)
    (h : fluxesB P T Bs n dt M u = some (M', f)) {o i : ℕ} (hi : i < 3) :
    f.val (3 * o + i) = none ↔
      (∃ e < T.internal.len, ∃ r, T.rightOf (T.internal.val e) = some r ∧ internalFlux P T u e r = none ∧
        (T.isOwned (T.leftOf (T.internal.val e)) o ∨ T.isOwned r o)) ∨
      (∃ B ∈ Bs, ∃ e < B.ids.len, boundaryFlux P T B u e = none ∧ T.isOwned (T.leftOf (B.ids.val e)) o) := by
  obtain ⟨M1, f1, h1, _, _, h4, _⟩ := fluxesB_spec (P := P) (dt := dt) hT hB hu hM
  rw [h1] at h
  cases h
  rw [h4 o i hi]
  unfold fluxEntry
  rw [bSum_eq_none, foldl_add_eq_none]
  simp only [reduceCtorEq, false_or, List.mem_range]
  have hs : ∀ (x : Option Flux) (c : ℝ), Num.scale (x.map fun F => F.comp i) c = none ↔ x = none := by
    intro x c; cases x <;> simp [Num.scale]
  refine or_congr ⟨?_, ?_⟩ ⟨?_, ?_⟩
  · rintro ⟨e, he, ht⟩
    unfold edgeTerm at ht
    cases hr : T.rightOf (T.internal.val e) with
    | none => rw [hr] at ht; simp at ht
    | some r =>
      rw [hr] at ht
      dsimp only at ht
      have : ∀ a b : Num, a.add b = none ↔ a = none ∨ b = none := by
        intro a b; cases a <;> cases b <;> simp [Num.add]
      rw [this, recv_eq_none, recv_eq_none, hs, hs] at ht
      rcases ht with ⟨a, b⟩ | ⟨a, b⟩
      · exact ⟨e, he, r, rfl.trans hr, b, Or.inl a⟩
      · exact ⟨e, he, r, rfl.trans hr, b, Or.inr a⟩
  · rintro ⟨e, he, r, hr, b, a⟩
    refine ⟨e, he, ?_⟩
    unfold edgeTerm
    rw [hr]
    dsimp only
    have : ∀ a b : Num, a.add b = none ↔ a = none ∨ b = none := by
      intro a b; cases a <;> cases b <;> simp [Num.add]
    rw [this, recv_eq_none, recv_eq_none, hs, hs]
    rcases a with a | a
    · exact Or.inl ⟨a, b⟩
    · exact Or.inr ⟨a, b⟩
  · rintro ⟨B, hBm, e, he, ht⟩
    unfold bEdgeTerm at ht
    rw [recv_eq_none, hs] at ht
    exact ⟨B, hBm, e, he, ht.2, ht.1⟩
  · rintro ⟨B, hBm, e, he, b, a⟩
    refine ⟨B, hBm, e, he, ?_⟩
    unfold bEdgeTerm
    rw [recv_eq_none, hs]
    exact ⟨a, b⟩

/-! ### With tracers -/

/-- The same with tracers: the operators can be created, and are ready then. -/
theorem C108_tracer_create {T : Tables} {nc n ne nt : ℕ} (hT : T.Valid nc n ne) {Bs : List TBnd}
    (hB : ∀ B ∈ Bs, B.Valid ne nt) :
    ∃ b ss, createTracerInteriorB T nt = some b ∧ Bs.mapM (createTracerBoundaryB T nt) = some ss ∧
      (⟨b, ss⟩ : TFluxMem).Ready nt T Bs := by
  obtain ⟨b, h1, h2, h3⟩ := createTracerInteriorB_spec hT nt
  have : ∃ ss, Bs.mapM (createTracerBoundaryB T nt) = some ss ∧ List.Forall₂ (fun s B => TBState.Ready s nt T B) ss Bs := by
    induction Bs with
    | nil => exact ⟨[], rfl, List.Forall₂.nil⟩
    | cons B Bs ih =>
      obtain ⟨s, e1, e2⟩ := createTracerBoundaryB_spec hT (hB B (by simp))
      obtain ⟨ss, e3, e4⟩ := ih fun B' hB' => hB B' (by simp [hB'])
      exact ⟨s :: ss, by rw [List.mapM_cons, e1, e3]; rfl, List.Forall₂.cons e2 e4⟩
  obtain ⟨ss, e1, e2⟩ := this
  exact ⟨b, ss, h1, e1, ⟨h2, h3, e2⟩⟩

/-- The same with tracers: an evaluation with ready memory is that of the edges treated one after the other, although the Roe solver
keeps a matrix from edge to edge. The number of components has to fit into its local arrays. -/
theorem C108_tracer_results {sv : TSolver} {P : FlowParams} {T : Tables} {nc n ne nt : ℕ} (hnt : 3 + nt ≤ maxFieldComponents)
    (hT : T.Valid nc n ne) {Bs : List TBnd} (hB : ∀ B ∈ Bs, B.Valid ne nt) {u : Arr ℝ} (hu : u.len = (3 + nt) * nc)
    {M : TFluxMem} (hM : M.Ready nt T Bs) {g : ℕ → ℕ → ℝ}
    (hg : tracerDivergence sv P nt (meshOf T [] nc) (tbEdgesOf nt T Bs) (tStateAt nt u) = some g) :
    ∃ M' f, tracerFluxesB sv P nt T Bs n M u = some (M', f) ∧ M'.Ready nt T Bs ∧ f.len = (3 + nt) * n ∧
      ∀ o < n, ∀ i < 3 + nt, f.val ((3 + nt) * o + i) = some (g o i) := by
  obtain ⟨M', f, h1, h2, h3, h4, _⟩ := tracerFluxesB_spec (sv := sv) (P := P) hnt hT hB hu hM
  exact ⟨M', f, h1, h2, h3, fun o _ i hi => by rw [h4 o i hi, tFluxEntry_eq hg]⟩

/-- The same with tracers: what a sequence of evaluations gives does not depend on what the operators keep. -/
theorem C108_tracer_history {sv : TSolver} {P : FlowParams} {T : Tables} {nc n ne nt : ℕ} (hnt : 3 + nt ≤ maxFieldComponents)
    (hT : T.Valid nc n ne) {Bs : List TBnd} (hB : ∀ B ∈ Bs, B.Valid ne nt) (evals : List (Arr ℝ))
    (hu : ∀ u ∈ evals, u.len = (3 + nt) * nc) :
    ∀ (M₁ M₂ : TFluxMem), M₁.Ready nt T Bs → M₂.Ready nt T Bs → ∃ M₁' M₂' fs,
      tracerEvaluationsB sv P nt T Bs n M₁ evals = some (M₁', fs) ∧
      tracerEvaluationsB sv P nt T Bs n M₂ evals = some (M₂', fs) ∧
      fs.length = evals.length ∧ M₁'.Ready nt T Bs ∧ M₂'.Ready nt T Bs := by
  induction evals with
  | nil => intro M₁ M₂ h1 h2; exact ⟨M₁, M₂, [], rfl, rfl, rfl, h1, h2⟩
  | cons u rest ih =>
    intro M₁ M₂ h1 h2
    have hl : u.len = (3 + nt) * nc := hu u (by simp)
    obtain ⟨A, f, a1, a2, a3, a4, _⟩ := tracerFluxesB_spec (sv := sv) (P := P) hnt hT hB hl h1
    obtain ⟨B, f', b1, b2, b3, b4, _⟩ := tracerFluxesB_spec (sv := sv) (P := P) hnt hT hB hl h2
    have hff : f' = f := Arr.ext_flat (nd := 3 + nt) (by omega) b3 a3 fun o i hi => by rw [b4 o i hi, a4 o i hi]
    subst hff
    obtain ⟨M₁', M₂', fs, c1, c2, c3, c4, c5⟩ := ih (fun p hp => hu p (by simp [hp])) A B a2 b2
    refine ⟨M₁', M₂', f' :: fs, ?_, ?_, by simp [c3], c4, c5⟩
    · show (tracerFluxesB sv P nt T Bs n M₁ u).bind _ = _
      rw [a1]
      show (tracerEvaluationsB sv P nt T Bs n A rest).map _ = _
      rw [c1]
      rfl
    · show (tracerFluxesB sv P nt T Bs n M₂ u).bind _ = _
      rw [b1]
      show (tracerEvaluationsB sv P nt T Bs n B rest).map _ = _
      rw [c2]
      rfl

/-- With tracers: the vectors of boundary fluxes hold, for the edges of owned cells, the fluxes through them in the given state. -/
theorem C108_tracer_boundary_fluxes {sv : TSolver} {P : FlowParams} {T : Tables} {nc n ne nt : ℕ}
    (hnt : 3 + nt ≤ maxFieldComponents) (hT : T.Valid nc n ne) {Bs : List TBnd} (hB : ∀ B ∈ Bs, B.Valid ne nt) {u : Arr ℝ}
    (hu : u.len = (3 + nt) * nc) {M M' : TFluxMem} {f : Arr Num} (hM : M.Ready nt T Bs)
    (h : tracerFluxesB sv P nt T Bs n M u = some (M', f)) {k : ℕ} {B : TBnd} (hk : Bs[k]? = some B) :
    ∃ s', M'.bnds[k]? = some s' ∧ ∀ e < B.ids.len, T.owned.val (T.leftOf (B.ids.val e)) = true → ∀ i < 3 + nt,
      s'.fluxes.val ((3 + nt) * e + i) = (tracerFlux sv P.g nt
        (tracerVelocities P.tinyH (tStateAt nt u (T.leftOf (B.ids.val e))))
        (tracerRight P.tinyH (B.cond nt e) (tracerVelocities P.tinyH (tStateAt nt u (T.leftOf (B.ids.val e))))
          (T.sn.val (B.ids.val e)) (T.cn.val (B.ids.val e)))
        (T.sn.val (B.ids.val e)) (T.cn.val (B.ids.val e))).map fun F => F i := by
  obtain ⟨M1, f1, h1, _, _, _, h5⟩ := tracerFluxesB_spec (sv := sv) (P := P) hnt hT hB hu hM
  rw [h1] at h
  cases h
  exact h5 k B hk

/-- Without room for all components the solver writes outside its local arrays. -/
theorem C108_tracer_room {sv : TSolver} {P : FlowParams} {T : Tables} {nc n ne nt : ℕ} (hnt : ¬ 3 + nt ≤ maxFieldComponents)
    (Bs : List TBnd) (M : TFluxMem) (u : Arr ℝ) : tracerFluxesB sv P nt T Bs n M u = none := by
  unfold tracerFluxesB applyTracerInteriorB tRoeB
  simp [hnt]

/-! ### Examples -/

/-- Two cells with an edge between them, of which the second is a ghost cell, another internal edge that has no second cell, and a
boundary edge at each cell. -/
def exTables : Tables where
  internal := ⟨2, fun e => e⟩
  cellIds := ⟨8, fun j => if j = 0 then 0 else if j = 1 then 1 else if j = 2 then 0 else if j = 4 then 0 else if j = 6 then 1 else -1⟩
  elen := ⟨4, fun _ => 2⟩
  sn := ⟨4, fun e => if e = 1 then 1 else 0⟩
  cn := ⟨4, fun e => if e = 1 then 0 else if e = 2 then -1 else 1⟩
  edgeOwned := ⟨4, fun _ => true⟩
  area := ⟨2, fun _ => 4⟩
  owned := ⟨2, fun c => decide (c = 0)⟩
  l2o := ⟨2, fun c => c⟩

theorem exTables_valid : exTables.Valid 2 1 4 where
  ids := by intro e he; show e < 4; have : e < 2 := he; omega
  cellIds := rfl
  elen := rfl
  sn := rfl
  cn := rfl
  area := rfl
  owned := rfl
  l2o := rfl
  left := by intro id h; interval_cases id <;> decide
  right := by intro id h; interval_cases id <;> decide
  range := by intro c h; interval_cases c <;> decide

/-- a reflecting boundary with the edges 2 and 3 -/
noncomputable def exBnd : Bnd := ⟨⟨2, fun e => 2 + e⟩, .reflecting, ⟨6, fun _ => 0⟩⟩

theorem exBnd_valid : exBnd.Valid 4 := ⟨fun e he => by show 2 + e < 4; have : e < 2 := he; omega, rfl⟩

/-- the same with one tracer -/
noncomputable def exTracerBnd : TBnd := ⟨⟨2, fun e => 2 + e⟩, .reflecting, ⟨8, fun _ => 0⟩⟩

theorem exTracerBnd_valid : exTracerBnd.Valid 4 1 := ⟨fun e he => by show 2 + e < 4; have : e < 2 := he; omega, rfl⟩

example : ∃ b ss, createInteriorB exTables = some b ∧ [exBnd].mapM (createBoundaryB exTables) = some ss ∧
    (⟨b, ss⟩ : FluxMem).Ready exTables [exBnd] :=
  C108_create exTables_valid (by simpa using exBnd_valid)

/-- still water of depth 1 in both cells -/
noncomputable def exU : Arr ℝ := ⟨6, fun j => if j % 3 = 0 then 1 else 0⟩

/-- the memory holds rubbish besides the normals -/
noncomputable def exMem : FluxMem where
  interior := ⟨⟨2, fun _ => ⟨7, 7, 7, 7, 7⟩⟩, ⟨2, fun _ => ⟨-3, 1, 2, 5, 5⟩⟩, ⟨2, fun e => if e = 1 then 9 else 0⟩,
    ⟨2, fun e => if e = 1 then 9 else 1⟩, ⟨6, fun _ => none⟩⟩
  bnds := [⟨⟨⟨2, fun _ => ⟨7, 7, 7, 7, 7⟩⟩, ⟨2, fun _ => ⟨-3, 1, 2, 5, 5⟩⟩, ⟨2, fun _ => 0⟩,
    ⟨2, fun e => if e = 0 then -1 else 1⟩, ⟨6, fun _ => none⟩⟩, ⟨6, fun _ => none⟩, ⟨6, fun _ => some 3⟩⟩]

theorem exMem_ready : exMem.Ready exTables [exBnd] where
  sized := ⟨rfl, rfl, rfl, rfl, rfl⟩
  normals := by
    intro e he hs
    have : e < 2 := he
    interval_cases e
    · exact ⟨by simp [exMem, exTables], by simp [exMem, exTables]⟩
    · exact absurd hs (by decide)
  bnds := List.Forall₂.cons ⟨rfl, rfl, rfl, rfl, rfl, rfl, by
    intro e he
    have : e < 2 := he
    interval_cases e <;> simp [exTables, exBnd]⟩ List.Forall₂.nil

/-- the parameters of the examples -/
noncomputable def exP : FlowParams := ⟨9.8, 0.001, 0, 0⟩

theorem usedFlux_some {g tinyH : ℝ} {L R : Prim} (hL : 0 < L.h) (hR : 0 < R.h) (sn cn : ℝ) :
    ∃ F, usedFlux g tinyH L R sn cn = some F := by
  unfold usedFlux
  split
  · unfold roeFlux
    rw [if_pos (show RoeDefined L.h R.h from ⟨hL.le, hR.le, by linarith⟩)]
    exact ⟨_, rfl⟩
  · exact ⟨_, rfl⟩

theorem exTables_some {Bs : List Bnd} (hBs : Bs = [exBnd]) :
    ∃ g, (applyInterior exP (meshOf exTables Bs 2) (stateAt exU) fun _ => Flux.zero).bind
      (applyBoundary exP (meshOf exTables Bs 2) (stateAt exU)) = some g := by
  have h0 : (velocities exP.tinyH exP.hAnuga (stateAt exU 0)).h = 1 := by
    rw [velocities_depth]; simp [stateAt, exU]
  have h1 : (velocities exP.tinyH exP.hAnuga (stateAt exU 1)).h = 1 := by
    rw [velocities_depth]; simp [stateAt, exU]
  obtain ⟨F, hF⟩ := usedFlux_some (g := exP.g) (tinyH := exP.tinyH) (L := velocities exP.tinyH exP.hAnuga (stateAt exU 0))
    (R := velocities exP.tinyH exP.hAnuga (stateAt exU 1)) (by rw [h0]; norm_num) (by rw [h1]; norm_num) 0 1
  obtain ⟨G, hG⟩ := usedFlux_some (g := exP.g) (tinyH := exP.tinyH) (L := velocities exP.tinyH exP.hAnuga (stateAt exU 0))
    (R := reflectRight (velocities exP.tinyH exP.hAnuga (stateAt exU 0)) 0 (-1)) (by rw [h0]; norm_num)
    (by show 0 < (velocities exP.tinyH exP.hAnuga (stateAt exU 0)).h; rw [h0]; norm_num) 0 (-1)
  subst hBs
  simp [applyInterior, applyBoundary, meshOf, exTables, exBnd, List.range_succ, interiorEdge, boundaryEdge, Tables.leftOf, Tables.rightOf,
    hF, hG, boundaryStates, Bnd.cond]

example : ∃ (g : ℕ → Flux) (M' : FluxMem) (f : Arr Num), fluxesB exP exTables [exBnd] 1 0.5 exMem exU = some (M', f) ∧
    ∀ o < 1, f.val (3 * o) = some (g o).m := by
  obtain ⟨g, hg⟩ := exTables_some rfl
  obtain ⟨M', f, h1, _, _, h4⟩ := C108_results (dt := 0.5) exTables_valid (by simpa using exBnd_valid) (u := exU) rfl exMem_ready hg
  exact ⟨g, M', f, h1, fun o ho => (h4 o ho).1⟩

/-- a state with a negative depth in the ghost cell -/
noncomputable def exU' : Arr ℝ := ⟨6, fun j => if j = 0 then 1 else if j = 3 then -1 else 0⟩

example : ∃ b ss, createInteriorB exTables = some b ∧ [exBnd].mapM (createBoundaryB exTables) = some ss ∧
    ∃ M₁' M₂' fs, evaluationsB exP exTables [exBnd] 1 ⟨b, ss⟩ [(0.5, exU'), (0.5, exU)] = some (M₁', fs) ∧
      evaluationsB exP exTables [exBnd] 1 exMem [(0.5, exU'), (0.5, exU)] = some (M₂', fs) := by
  obtain ⟨b, ss, h1, h2, h3⟩ := C108_create exTables_valid (Bs := [exBnd]) (by simpa using exBnd_valid)
  obtain ⟨M₁', M₂', fs, e1, e2, _⟩ := C108_history (P := exP) exTables_valid (Bs := [exBnd]) (by simpa using exBnd_valid)
    [(0.5, exU'), (0.5, exU)] (by simp [exU, exU']) ⟨b, ss⟩ exMem h3 exMem_ready
  exact ⟨b, ss, h1, h2, M₁', M₂', fs, e1, e2⟩

example {M' : FluxMem} {f : Arr Num} (h : fluxesB exP exTables [exBnd] 1 0.5 exMem exU = some (M', f)) :
    ∃ s', M'.bnds[0]? = some s' ∧ s'.accum.val 0 = Num.add (some 3) ((s'.fluxes.val 0).scale 0.5) := by
  obtain ⟨s', h1, h2⟩ := C108_boundary_fluxes exTables_valid (by simpa using exBnd_valid) (u := exU) rfl exMem_ready h (k := 0) rfl rfl
  exact ⟨s', h1, (h2 0 (by decide) rfl 0 (by omega)).2⟩

/-- the negative depth of the ghost cell makes the entries of its neighbour NaN -/
example {M' : FluxMem} {f : Arr Num} (h : fluxesB exP exTables [exBnd] 1 0.5 exMem exU' = some (M', f)) : f.val 0 = none := by
  refine (C108_nan exTables_valid (by simpa using exBnd_valid) (u := exU') rfl exMem_ready h (o := 0) (i := 0) (by omega)).mpr
    (Or.inl ⟨0, by decide, 1, rfl, ?_, Or.inl ⟨rfl, rfl⟩⟩)
  have h0 : (velocities exP.tinyH exP.hAnuga (stateAt exU' 0)).h = 1 := by
    rw [velocities_depth]; simp [stateAt, exU']
  have h1 : (velocities exP.tinyH exP.hAnuga (stateAt exU' 1)).h = -1 := by
    rw [velocities_depth]; simp [stateAt, exU']
  show usedFlux exP.g exP.tinyH (velocities exP.tinyH exP.hAnuga (stateAt exU' 0)) (velocities exP.tinyH exP.hAnuga (stateAt exU' 1)) _ _ = none
  unfold usedFlux roeFlux
  rw [h0, h1, if_pos (by simp only [exP]; norm_num), if_neg (by unfold RoeDefined; norm_num)]
  rfl

example : ∃ b ss, createTracerInteriorB exTables 1 = some b ∧ [exTracerBnd].mapM (createTracerBoundaryB exTables 1) = some ss ∧
    (⟨b, ss⟩ : TFluxMem).Ready 1 exTables [exTracerBnd] :=
  C108_tracer_create exTables_valid (by simpa using exTracerBnd_valid)

/-- still water with a tracer -/
noncomputable def exTU : Arr ℝ := ⟨8, fun j => if j % 4 = 0 then 1 else if j % 4 = 3 then 0.25 else 0⟩

theorem usedTracerFlux_some {sv : TSolver} {g tinyH : ℝ} {nt : ℕ} {L R : TPrim} (hL : 0 < L.p.h) (hR : 0 < R.p.h) (sn cn : ℝ) :
    ∃ F, usedTracerFlux sv g tinyH nt L R sn cn = some F := by
  unfold usedTracerFlux
  split
  · unfold tracerFlux
    rw [if_pos (show RoeDefined L.p.h R.p.h from ⟨hL.le, hR.le, by linarith⟩)]
    cases sv
    · exact ⟨_, rfl⟩
    · exact ⟨_, rfl⟩
  · exact ⟨_, rfl⟩

theorem exTables_tracer_some (sv : TSolver) {Bs : List TBnd} (hBs : Bs = [exTracerBnd]) :
    ∃ g, tracerDivergence sv exP 1 (meshOf exTables [] 2) (tbEdgesOf 1 exTables Bs) (tStateAt 1 exTU) = some g := by
  have h0 : (tracerVelocities exP.tinyH (tStateAt 1 exTU 0)).p.h = 1 := by
    rw [tracerVelocities_depth]; simp [tStateAt, exTU]
  have h1 : (tracerVelocities exP.tinyH (tStateAt 1 exTU 1)).p.h = 1 := by
    rw [tracerVelocities_depth]; simp [tStateAt, exTU]
  obtain ⟨F, hF⟩ := usedTracerFlux_some (sv := sv) (g := exP.g) (tinyH := exP.tinyH) (nt := 1)
    (L := tracerVelocities exP.tinyH (tStateAt 1 exTU 0))
    (R := tracerVelocities exP.tinyH (tStateAt 1 exTU 1)) (by rw [h0]; norm_num) (by rw [h1]; norm_num) 0 1
  obtain ⟨G, hG⟩ := usedTracerFlux_some (sv := sv) (g := exP.g) (tinyH := exP.tinyH) (nt := 1)
    (L := tracerVelocities exP.tinyH (tStateAt 1 exTU 0))
    (R := tracerRight exP.tinyH .reflecting (tracerVelocities exP.tinyH (tStateAt 1 exTU 0)) 0 (-1)) (by rw [h0]; norm_num)
    (by show 0 < (tracerVelocities exP.tinyH (tStateAt 1 exTU 0)).p.h; rw [h0]; norm_num) 0 (-1)
  subst hBs
  simp [tracerDivergence, meshOf, tbEdgesOf, exTables, exTracerBnd, List.range_succ, tracerEdge, tracerBEdge, Tables.leftOf, Tables.rightOf,
    hF, hG, TBnd.cond]

example (sv : TSolver) : ∃ (b : TBatch) (ss : List TBState) (M' : TFluxMem) (f : Arr Num) (g : ℕ → ℕ → ℝ),
    createTracerInteriorB exTables 1 = some b ∧
    [exTracerBnd].mapM (createTracerBoundaryB exTables 1) = some ss ∧
    tracerFluxesB sv exP 1 exTables [exTracerBnd] 1 ⟨b, ss⟩ exTU = some (M', f) ∧ f.val 3 = some (g 0 3) := by
  obtain ⟨b, ss, h1, h2, h3⟩ := C108_tracer_create (nt := 1) exTables_valid (Bs := [exTracerBnd]) (by simpa using exTracerBnd_valid)
  obtain ⟨g, hg⟩ := exTables_tracer_some sv rfl
  obtain ⟨M', f, e1, _, _, e4⟩ := C108_tracer_results (by decide) exTables_valid (Bs := [exTracerBnd]) (by simpa using exTracerBnd_valid)
    (u := exTU) rfl h3 hg
  exact ⟨b, ss, M', f, g, h1, h2, e1, e4 0 (by omega) 3 (by omega)⟩

example (sv : TSolver) : ∃ b ss, createTracerInteriorB exTables 1 = some b ∧
    [exTracerBnd].mapM (createTracerBoundaryB exTables 1) = some ss ∧ ∃ M₁ f₁, tracerFluxesB sv exP 1 exTables [exTracerBnd] 1 ⟨b, ss⟩ exTU = some (M₁, f₁) ∧
    ∃ M₂ M₃ fs, tracerEvaluationsB sv exP 1 exTables [exTracerBnd] 1 ⟨b, ss⟩ [exTU] = some (M₂, fs) ∧
      tracerEvaluationsB sv exP 1 exTables [exTracerBnd] 1 M₁ [exTU] = some (M₃, fs) := by
  obtain ⟨b, ss, h1, h2, h3⟩ := C108_tracer_create (nt := 1) exTables_valid (Bs := [exTracerBnd]) (by simpa using exTracerBnd_valid)
  obtain ⟨g, hg⟩ := exTables_tracer_some sv rfl
  obtain ⟨M', f, e1, e2, _⟩ := C108_tracer_results (by decide) exTables_valid (Bs := [exTracerBnd]) (by simpa using exTracerBnd_valid)
    (u := exTU) rfl h3 hg
  obtain ⟨M₂, M₃, fs, q1, q2, _⟩ := C108_tracer_history (sv := sv) (P := exP) (by decide) exTables_valid (Bs := [exTracerBnd])
    (by simpa using exTracerBnd_valid) [exTU] (by simp [exTU]) ⟨b, ss⟩ M' h3 e2
  exact ⟨b, ss, h1, h2, M', f, e1, M₂, M₃, fs, q1, q2⟩

example {sv : TSolver} {M M' : TFluxMem} {f : Arr Num} (hM : M.Ready 1 exTables [exTracerBnd])
    (h : tracerFluxesB sv exP 1 exTables [exTracerBnd] 1 M exTU = some (M', f)) : ∃ s', M'.bnds[0]? = some s' ∧ s'.fluxes.val 3 =
      (tracerFlux sv 9.8 1 (tracerVelocities 0.001 (tStateAt 1 exTU 0))
        (tracerRight 0.001 .reflecting (tracerVelocities 0.001 (tStateAt 1 exTU 0)) 0 (-1)) 0 (-1)).map fun F => F 3 := by
  obtain ⟨s', h1, h2⟩ := C108_tracer_boundary_fluxes (by decide) exTables_valid (by simpa using exTracerBnd_valid) (u := exTU) rfl hM h (k := 0) rfl
  have h3 := h2 0 (by decide) rfl 3 (by omega)
  exact ⟨s', h1, by simpa [exTables, exTracerBnd, Tables.leftOf, TBnd.cond, exP] using h3⟩

example : ¬ 3 + 8 ≤ maxFieldComponents := by decide

end RDy
