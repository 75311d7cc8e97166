import Verif.Lemmas.CeedHR
import Verif.Props.CeedSource
import Verif.Props.PetscRhs
import Mathlib.Tactic

/-!
# The operators of the CEED backend with hydrostatic reconstruction as they are put together (C113)

`createFluxHRC` builds the flux operators from the arrays of the mesh, with the bed elevations of the cells among the geometric factors; the source operator is that
of C111 without the bed slope. `junk` stands for what libCEED finds in outputs that the Q-function does not write.
-/

namespace RDy

variable {T : CTables} {V : BedTables} {nc n ne nv : ℕ}

/-! ### Specification -/

/-- Specification: the Courant number of internal edge `id` for its left (`k = 0`) or right cell: the largest wave speed between the reconstructed states times the
length of the edge over the area of the cell, times the time step. -/
noncomputable def hrCourantOf (P : FlowParams) (T : CTables) (V : BedTables) (dt : ℝ) (u : Arr ℝ) (id k : ℕ) : Num :=
  (hrAmaxCeed P (V.zcOf (T.leftOf id)) (V.zcOf (T.R id)) (stateAt u (T.leftOf id)) (stateAt u (T.R id)) (T.sn.val id) (T.cn.val id)).map fun a =>
    a * (T.elen.val id / T.area.val (if k = 0 then T.leftOf id else T.R id)) * dt

/-! ### Flux divergences -/

/-- C113: on a mesh whose tables have their sizes and name existing cells and vertices, the operators can be built and evaluated
any number of times, for any states, without an access outside an array and without the use of an offset that was not set. -/
theorem C113_defined (P : FlowParams) (junk : Unwritten) (hT : T.Valid nc n ne nv) (hV : V.Valid nc) {Bs : List Bnd}
    (hB : ∀ B ∈ Bs, B.Valid ne) (l : List (ℝ × Arr ℝ)) (hl : ∀ s ∈ l, s.2.len = 3 * nc) :
    ∃ ops ops', createFluxHRC P junk T V Bs = some ops ∧ fluxEvaluationsC nc l ops = some ops' := by
  obtain ⟨ops, h1, h2, -⟩ := createFluxHRC_spec P junk hT hV hB
  obtain ⟨ops', h3, -⟩ := evaluationsHR_spec P junk hT hB l _ ops hl h2
  exact ⟨ops, ops', h1, h3⟩

/-- C113 (what an evaluation gives): whatever was evaluated before and whatever stands in the outputs that are not written, an evaluation gives in every place the
flux divergence found edge by edge over the owned edges with the bed elevations of the cells; it gives NaN somewhere exactly if one of those fluxes is NaN. -/
theorem C113_divergence (P : FlowParams) (junk : Unwritten) (hT : T.Valid nc n ne nv) (hV : V.Valid nc) {Bs : List Bnd}
    (hB : ∀ B ∈ Bs, B.Valid ne) (l : List (ℝ × Arr ℝ)) (hl : ∀ s ∈ l, s.2.len = 3 * nc) (dt : ℝ) (u : Arr ℝ) (hu : u.len = 3 * nc)
    {ops ops' : List COp} (h1 : createFluxHRC P junk T V Bs = some ops) (h2 : fluxEvaluationsC nc l ops = some ops') :
    ∃ ops'' rhs, fluxEvaluationC nc dt u ops' = some (ops'', rhs) ∧ rhs.len = 3 * nc ∧
      (∀ f, ceedDivergence P true { ceedMeshOf T Bs nc with zc := V.zcOf } (stateAt u) = some f →
        ∀ c, ∀ k < 3, rhs.val (3 * c + k) = some ((f c).comp k)) ∧
      (ceedDivergence P true { ceedMeshOf T Bs nc with zc := V.zcOf } (stateAt u) = none → ∃ c < nc, ∀ k < 3, rhs.val (3 * c + k) = none) := by
  obtain ⟨ops0, e1, e2, -⟩ := createFluxHRC_spec P junk hT hV hB
  obtain rfl : ops0 = ops := Option.some.inj (e1.symm.trans h1)
  obtain ⟨ops1, e3, e4⟩ := evaluationsHR_spec P junk hT hB l _ ops0 hl e2
  obtain rfl : ops1 = ops' := Option.some.inj (e3.symm.trans h2)
  obtain ⟨ops'', rhs, i1, -, i3, i4, -⟩ := evaluationHR_spec P junk hT hu dt hB e4
  refine ⟨ops'', rhs, i1, i3, fun f hf c k hk => ?_, fun hn => ?_⟩
  · rw [i4 c k hk]
    exact divergenceHR_entry P hT Bs hf c k
  · obtain ⟨c, hc, h⟩ := divergenceHR_nan P hT hB hn
    exact ⟨c, hc, fun k hk => (i4 c k hk).trans (h k)⟩

/-! ### The right-hand side on one process -/

/-- C113 (the right-hand side on one process): whatever was evaluated before, the assembled operators give for every cell the right-hand side
that the edges and cells give one by one (`ceedRhs`, for which C48 is stated). The bed slope has no part in it. -/
theorem C113_rhs (P : FlowParams) (junk : Unwritten) (m : FrictionMethod) (hT : T.Valid nc n ne nv) (hV : V.Valid nc) {Bs : List Bnd}
    (hB : ∀ B ∈ Bs, B.Valid ne) {S : SCells} (hS : S.Valid nc) (hown : ∀ c < nc, S.owned.val c = true) (hTS : T.owned = S.owned)
    (hTl : T.l2o = S.l2o) (l : List (ℝ × Arr ℝ)) (hl : ∀ s ∈ l, s.2.len = 3 * nc) (l' : List SCall) (hl' : ∀ a ∈ l', a.Fits S nc)
    {ops ops' : List COp} {op op' : COp} (h1 : createFluxHRC P junk T V Bs = some ops) (h2 : fluxEvaluationsC nc l ops = some ops')
    (h3 : createSourceC P m false S = some op) (h4 : sourceEvaluationsC nc op l' = some op') (dt : ℝ) (u ext mat : Arr ℝ)
    (hu : u.len = 3 * nc) (he : ext.len = 3 * nc) (hm : mat.len = nc) {f : ℕ → Flux}
    (hf : ceedRhs P m true { ceedMeshOf T Bs nc with zc := V.zcOf } dt
      (fun c => ⟨ext.val (3 * c), ext.val (3 * c + 1), ext.val (3 * c + 2)⟩) mat.val (stateAt u) = some f) :
    ∃ ops'' op'' rhs, applyCeedC nc dt u ext mat ops' op' = some (ops'', op'', rhs) ∧ rhs.len = 3 * nc ∧
      ∀ c < nc, ∀ k < 3, rhs.val (3 * c + k) = some ((f c).comp k) := by
  obtain ⟨hn, hid⟩ := allOwned_l2o hS hown
  unfold ceedRhs at hf
  obtain ⟨d, hd, hfold⟩ := Option.bind_eq_some_iff.mp hf
  obtain ⟨ops'', r, e1, e2, e3, -⟩ := C113_divergence P junk hT hV hB l hl dt u hu h1 h2
  obtain ⟨b, b1, b2, b3⟩ := realVec_some e2 d (e3 d hd)
  have hfit : (⟨dt, u, ext, mat, b⟩ : SCall).Fits S nc := ⟨hu, by rw [hn]; exact he, by rw [hn, Nat.one_mul]; exact hm, by rw [hn]; exact b2⟩
  obtain ⟨op'', rhs, pv, si, i1, -, -, i2, -, -, i3⟩ := C111_cells P m false hS l' hl' hfit h3 (by rw [hn]; exact h4)
  rw [hn] at i1 i2
  have hrest := sources_fold P m (!true) { ceedMeshOf T Bs nc with zc := V.zcOf } dt _ mat.val d (stateAt u) nc d f
    (fun c hc => by show T.owned.val c = true; rw [hTS]; exact hown c hc)
    (fun c hc => by show T.l2o.val c = c; rw [hTl]; exact hid c hc) hfold
  refine ⟨ops'', op'', rhs, ?_, i2, ?_⟩
  · unfold applyCeedC
    rw [e1]
    show (realVec r).bind _ = _
    rw [b1]
    show Option.map _ (sourceEvaluationC nc op' _) = _
    rw [i1]
    rfl
  · intro c hc k hk
    have h5 := (i3 c hc (hown c hc) k hk).1
    rw [hid c hc] at h5
    rw [h5]
    have h6 := hrest c hc
    rw [← b3 c] at h6
    have h7 : S.rhsOf P m false ⟨dt, u, ext, mat, b⟩ c c = some (f c) := h6
    rw [h7]
    rfl

/-! ### Still water -/

/-- friction leaves water at rest alone -/
theorem cellRhsCeed_rest {P : FlowParams} (m : FrictionMethod) (a b dt n : ℝ) {q : Cons} (ht : 0 < P.tinyH) (hx : 0 < P.xqThreshold)
    (h1 : q.hu = 0) (h2 : q.hv = 0) :
    cellRhsCeed P m false a b dt n ⟨0, 0, 0⟩ ⟨0, 0, 0⟩ q = some ⟨0, 0, 0⟩ := by
  have hfr : frictionCeed P m dt n q 0 0 0 0 = some (0, 0) := by
    unfold frictionCeed
    by_cases hw : q.h > P.tinyH
    · rw [if_pos hw]
      have hpos : 0 < q.h := ht.trans hw
      have hd : q.h * q.h + P.hAnuga * P.hAnuga ≠ 0 := by
        nlinarith [mul_pos hpos hpos, mul_self_nonneg P.hAnuga]
      cases m with
      | semiImplicit =>
        show semiImplicitCeed P dt n q 0 0 0 0 = _
        have hvel : velocitiesCeed P.tinyH P.hAnuga q = some ⟨q.h, 0, 0⟩ := by
          unfold velocitiesCeed safeDiv
          rw [if_pos hw, if_pos hw, if_neg hd, if_neg hd, h1, h2]
          simp
        unfold semiImplicitCeed
        rw [hvel]
        simp [h1, h2, hpos.ne']
      | xq2018 =>
        show xqCeed P dt n q 0 0 0 0 = _
        unfold xqCeed
        rw [if_neg hpos.ne', h1, h2]
        have hl : xqLambdaCeed P n q.h (0 + (0 - 0) * dt) (0 + (0 - 0) * dt) = 0 := by
          unfold xqLambdaCeed
          norm_num
        unfold xqDischargeCeed
        rw [hl, if_pos (by simpa using hx)]
        simp
    · rw [if_neg hw]
  unfold cellRhsCeed bedTerm
  simp only [Bool.false_eq_true, if_false]
  rw [hfr]
  simp

/-- with a time step of 0, XQ2018 gives the flux divergence of a cell at rest back -/
theorem cellRhsCeed_zero_dt {P : FlowParams} (a b n : ℝ) {q : Cons} {F G : Flux} (ht : 0 < P.tinyH) (hx : 0 < P.xqThreshold) (h1 : q.hu = 0)
    (h2 : q.hv = 0) (h : cellRhsCeed P .xq2018 false a b 0 n ⟨0, 0, 0⟩ F q = some G) : F = G := by
  have hfr : frictionCeed P .xq2018 0 n q F.x F.y 0 0 = some (0, 0) := by
    unfold frictionCeed
    by_cases hw : q.h > P.tinyH
    · rw [if_pos hw]
      show xqCeed P 0 n q F.x F.y 0 0 = _
      unfold xqCeed xqDischargeCeed
      rw [if_neg (ht.trans hw).ne', h1, h2, if_pos (by simpa using hx)]
      simp
    · rw [if_neg hw]
  unfold cellRhsCeed bedTerm at h
  simp only [Bool.false_eq_true, if_false] at h
  rw [hfr] at h
  simpa using h

theorem restState_ne {P : FlowParams} {eta z : ℝ} (ht : 0 < P.tinyH) (h : eta ≤ z ∨ P.tinyH < eta - z) : (restState eta z).h ≠ P.tinyH := by
  show max 0 (eta - z) ≠ P.tinyH
  rcases h with h | h
  · rw [max_eq_left (by linarith)]; exact ht.ne
  · rw [max_eq_right (by linarith)]; exact h.ne'

/-- the flux divergences of a lake at rest vanish -/
theorem ceedDivergence_rest {P : FlowParams} {pm : PMesh} {u : ℕ → Cons} {eta : ℝ} (hg : 0 < P.g) (ht : 0 < P.tinyH) (hx : 0 < P.xqThreshold)
    (hown : ∀ c, pm.owned c = true) (hl2o : ∀ c < pm.numCells, pm.l2o c = c) (hv : EdgesValid pm) (hclosed : ClosedCells pm)
    (hf : NoFilm P eta pm) (hb : RestBoundaries eta pm) (hu : ∀ c < pm.numCells, u c = restState eta (pm.zc c)) :
    ∃ d, ceedDivergence P true pm u = some d ∧ ∀ c < pm.numCells, d c = ⟨0, 0, 0⟩ := by
  have hinj : OwnedInj pm := by
    intro c hc c' hc' _ _ h
    rwa [hl2o c hc, hl2o c' hc'] at h
  obtain ⟨g, hg1, hg2⟩ := C43_rest_zero (P := P) .xq2018 (pm := pm) (dt := 0) (fun _ => 0) (eta := eta) (src := fun _ => ⟨0, 0, 0⟩) (u := u)
    hg ht hx le_rfl hinj hv hclosed hf hb (fun _ => rfl) hu
  have hside : ∀ c < pm.numCells, ∀ z z', HRSide P (hrState P z z' (u c)) := by
    intro c hc z z'
    right
    rw [hu c hc]
    unfold hrState restState
    constructor <;> simp
  have heq := C48_rhs_partial (P := P) .xq2018 true (pm := pm) 0 (fun _ => ⟨0, 0, 0⟩) (fun _ => 0) (u := u) hg ht (Or.inl rfl) hown hv hinj
    (fun c hc => by rw [hu c hc]; exact restState_ne ht (hf c hc))
    (fun e he => by
      unfold RegularEdge
      rcases hb e he with h | h <;> rw [h]
      · trivial
      · exact restState_ne ht (hf _ (hv.cell e he)))
    (fun _ e he r hr => ⟨hside _ (hv.left e he) _ _, hside _ (hv.right e he r hr) _ _⟩)
  have hc := heq.trans hg1
  unfold ceedRhs at hc
  obtain ⟨d, hd, hfold⟩ := Option.bind_eq_some_iff.mp hc
  refine ⟨d, hd, fun c hc => ?_⟩
  have h := sources_fold P .xq2018 (!true) pm 0 (fun _ => ⟨0, 0, 0⟩) (fun _ => 0) d u pm.numCells d g (fun c _ => hown c) hl2o hfold c hc
  have hz : g c = ⟨0, 0, 0⟩ := by
    have := hg2 c hc (hown c)
    rwa [hl2o c hc] at this
  rw [← hz]
  exact cellRhsCeed_zero_dt _ _ _ ht hx (by rw [hu c hc]; rfl) (by rw [hu c hc]; rfl) h

/-- C113 (still water stays still with the assembled operators): on one process, with closed cells, walls or matching prescribed values at the boundaries, no
film thinner than the dry threshold and no sources, the right-hand side of a lake at rest over any bed vanishes: for both friction methods, with
or without regularised velocities, whatever was evaluated before. The level is measured from the mean elevation of the corners of each cell (or that of the file). -/
theorem C113_rest (P : FlowParams) (junk : Unwritten) (m : FrictionMethod) (hT : T.Valid nc n ne nv) (hV : V.Valid nc) {Bs : List Bnd}
    (hB : ∀ B ∈ Bs, B.Valid ne) {S : SCells} (hS : S.Valid nc) (hown : ∀ c, S.owned.val c = true) (hTS : T.owned = S.owned)
    (hTl : T.l2o = S.l2o) (l : List (ℝ × Arr ℝ)) (hl : ∀ s ∈ l, s.2.len = 3 * nc) (l' : List SCall) (hl' : ∀ a ∈ l', a.Fits S nc)
    {ops ops' : List COp} {op op' : COp} (h1 : createFluxHRC P junk T V Bs = some ops) (h2 : fluxEvaluationsC nc l ops = some ops')
    (h3 : createSourceC P m false S = some op) (h4 : sourceEvaluationsC nc op l' = some op') (dt : ℝ) (u ext mat : Arr ℝ)
    (hu : u.len = 3 * nc) (he : ext.len = 3 * nc) (hm : mat.len = nc) (hg : 0 < P.g) (ht : 0 < P.tinyH) (hx : 0 < P.xqThreshold)
    (hv : EdgesValid (ceedHRMeshOf T V Bs nc)) (hclosed : ClosedCells (ceedHRMeshOf T V Bs nc)) {eta : ℝ}
    (hf : NoFilm P eta (ceedHRMeshOf T V Bs nc)) (hb : RestBoundaries eta (ceedHRMeshOf T V Bs nc)) (hsrc : ∀ j, ext.val j = 0)
    (hstill : ∀ c < nc, stateAt u c = restState eta (if V.fromFile then V.centroidZ.val c else cornerMean V c)) :
    ∃ ops'' op'' rhs, applyCeedC nc dt u ext mat ops' op' = some (ops'', op'', rhs) ∧ ∀ j < 3 * nc, rhs.val j = some 0 := by
  obtain ⟨hn, hid⟩ := allOwned_l2o hS fun c _ => hown c
  have hst : ∀ c < nc, stateAt u c = restState eta (V.zcOf c) := by
    intro c hc
    rw [hstill c hc]
    cases hff : V.fromFile with
    | true => simp [BedTables.zcOf, hff]
    | false => rw [cornerMean_eq V c hff]; rfl
  obtain ⟨d, hd, hd0⟩ := ceedDivergence_rest (P := P) (pm := ceedHRMeshOf T V Bs nc) (u := stateAt u) (eta := eta) hg ht hx
    (fun c => by show T.owned.val c = true; rw [hTS]; exact hown c) (fun c hc => by show T.l2o.val c = c; rw [hTl]; exact hid c hc)
    hv hclosed hf hb hst
  obtain ⟨ops'', r, e1, e2, e3, -⟩ := C113_divergence P junk hT hV hB l hl dt u hu h1 h2
  obtain ⟨b, b1, b2, b3⟩ := realVec_some e2 d (e3 d hd)
  have hfit : (⟨dt, u, ext, mat, b⟩ : SCall).Fits S nc := ⟨hu, by rw [hn]; exact he, by rw [hn, Nat.one_mul]; exact hm, by rw [hn]; exact b2⟩
  obtain ⟨op'', rhs, pv, si, i1, -, -, i2, -, -, i3⟩ := C111_cells P m false hS l' hl' hfit h3 (by rw [hn]; exact h4)
  rw [hn] at i1 i2
  refine ⟨ops'', op'', rhs, ?_, ?_⟩
  · unfold applyCeedC
    rw [e1]
    show (realVec r).bind _ = _
    rw [b1]
    show Option.map _ (sourceEvaluationC nc op' _) = _
    rw [i1]
    rfl
  · intro j hj
    have hc : j / 3 < nc := by omega
    have h5 := (i3 (j / 3) hc (hown _) (j % 3) (by omega)).1
    rw [hid _ hc, Nat.div_add_mod j 3] at h5
    rw [h5]
    have h6 : S.rhsOf P m false ⟨dt, u, ext, mat, b⟩ (j / 3) (j / 3) = some ⟨0, 0, 0⟩ := by
      have h7 := cellRhsCeed_rest (P := P) m (S.dzdx.val (j / 3)) (S.dzdy.val (j / 3)) dt (mat.val (j / 3)) (q := stateAt u (j / 3)) ht hx
        (by rw [hst _ hc]; rfl) (by rw [hst _ hc]; rfl)
      have hb0 : fluxAt b (j / 3) = ⟨0, 0, 0⟩ := (b3 _).trans (hd0 _ hc)
      unfold SCells.rhsOf
      dsimp only
      rw [hsrc, hsrc, hsrc]
      show cellRhsCeed P m false _ _ _ _ ⟨0, 0, 0⟩ (fluxAt b (j / 3)) _ = _
      rw [hb0]
      exact h7
    rw [h6]
    exact congrArg some (comp_zero _)

/-! ### Courant numbers -/

/-- C113 (Courant numbers, the part that holds): an evaluation adds the Courant numbers of the owned internal edges, with the positive sign, to the first two
components of the vector of the field "flux". Missing: that they are in the vector of the field "courant_number", from which the number that is reported is
taken; see `C113_courant_violated`. -/
theorem C113_courant_partial (P : FlowParams) (junk : Unwritten) (hT : T.Valid nc n ne nv) (hV : V.Valid nc) {Bs : List Bnd}
    (hB : ∀ B ∈ Bs, B.Valid ne) (l : List (ℝ × Arr ℝ)) (hl : ∀ s ∈ l, s.2.len = 3 * nc) (dt : ℝ) (u : Arr ℝ) (hu : u.len = 3 * nc)
    {ops ops' ops'' : List COp} {rhs : Arr Num} (h1 : createFluxHRC P junk T V Bs = some ops) (h2 : fluxEvaluationsC nc l ops = some ops')
    (h3 : fluxEvaluationC nc dt u ops' = some (ops'', rhs)) :
    ∃ v v', ops'[0]?.bind (fun op => op.outVec 2) = some v ∧ ops''[0]?.bind (fun op => op.outVec 2) = some v' ∧
      ∀ e < T.internal.len, T.intOwned e = true → ∀ k < 2, v'.val (3 * T.intBefore e + k) =
        (v.val (3 * T.intBefore e + k)).add (hrCourantOf P T V dt u (T.internal.val e) k) := by
  obtain ⟨ops0, e1, e2, -⟩ := createFluxHRC_spec P junk hT hV hB
  obtain rfl : ops0 = ops := Option.some.inj (e1.symm.trans h1)
  obtain ⟨ops1, e3, e4⟩ := evaluationsHR_spec P junk hT hB l _ ops0 hl e2
  obtain rfl : ops1 = ops' := Option.some.inj (e3.symm.trans h2)
  obtain ⟨ops2, r2, i1, -, -, -, fl, fl', cn, cn', j1, j2, -, -, j5, -⟩ := evaluationHR_spec P junk hT hu dt hB e4
  obtain ⟨rfl, rfl⟩ : ops2 = ops'' ∧ r2 = rhs := Prod.mk.injEq .. ▸ Option.some.inj (i1.symm.trans h3)
  refine ⟨fl, fl', j1, j2, fun e he ho k hk => ?_⟩
  obtain ⟨k1, k2⟩ := owned'_getD T T.internal ho _ he
  have h := j5 (T.owned' T.internal e).length (by rw [hT.count]; exact k1) k hk
  rw [k2] at h
  refine Eq.trans h (congrArg _ ?_)
  unfold hrCourant hrCourantOf
  congr 1
  funext F
  by_cases h0 : k = 0
  · rw [if_pos h0, if_pos h0]; ring
  · rw [if_neg h0, if_neg h0]

/-- the vector "courant_number" after evaluations -/
theorem courantHR_untouched (P : FlowParams) (junk : Unwritten) (hz : ∀ d l k, junk d l 3 k = some 0) (hT : T.Valid nc n ne nv) {Bs : List Bnd}
    (hB : ∀ B ∈ Bs, B.Valid ne) : ∀ (l : List (ℝ × Arr ℝ)) (Φ : Bnd → ℕ → ℕ → Num) (ops ops' : List COp) (v : Arr Num),
    (∀ s ∈ l, s.2.len = 3 * nc) → HROpsReady P junk T V Bs Φ ops → ops[0]?.bind (fun op => op.outVec 3) = some v →
    fluxEvaluationsC nc l ops = some ops' → ∃ v', ops'[0]?.bind (fun op => op.outVec 3) = some v' ∧
      ∀ j < T.numOwnedInternal, ∀ k < 2, v'.val (2 * j + k) = v.val (2 * j + k) := by
  intro l
  induction l with
  | nil => intro Φ ops ops' v _ _ h3 h4; obtain rfl : ops = ops' := Option.some.inj h4; exact ⟨v, h3, fun _ _ _ _ => rfl⟩
  | cons s l ih =>
    intro Φ ops ops' v hl h h3 h4
    obtain ⟨ops1, r, e1, e2, -, -, fl, fl', cn, cn', -, -, j3, j4, -, j6⟩ := evaluationHR_spec P junk hT (hl s List.mem_cons_self) s.1 hB h
    obtain rfl : cn = v := Option.some.inj (j3.symm.trans h3)
    obtain ⟨dt, u⟩ := s
    have h5 : (fluxEvaluationC nc dt u ops).bind (fun r => fluxEvaluationsC nc l r.1) = some ops' := h4
    rw [e1] at h5
    obtain ⟨v', k1, k2⟩ := ih _ ops1 ops' cn' (fun s' h' => hl s' (List.mem_cons_of_mem _ h')) e2 j4 h5
    exact ⟨v', k1, fun j hj k hk => (k2 j hj k hk).trans (j6 hz j hj k hk)⟩

theorem velocitiesCeed_some {tinyH hAnuga : ℝ} (q : Cons) (ht : 0 < tinyH) : ∃ s, velocitiesCeed tinyH hAnuga q = some s ∧ s.h = q.h := by
  unfold velocitiesCeed safeDiv
  by_cases h : q.h > tinyH
  · have hd : q.h * q.h + hAnuga * hAnuga ≠ 0 := by
      have : 0 < q.h := ht.trans h
      nlinarith [mul_pos this this, mul_self_nonneg hAnuga]
    rw [if_pos h, if_pos h, if_neg hd, if_neg hd]
    exact ⟨_, rfl, rfl⟩
  · rw [if_neg h, if_neg h]
    exact ⟨_, rfl, rfl⟩

/-- between states one of which is wet above both beds waves travel -/
theorem hrAmaxCeed_pos {P : FlowParams} (zL zR sn cn : ℝ) {qL qR : Cons} (hg : 0 < P.g) (ht : 0 < P.tinyH)
    (hw : P.tinyH < qL.h + zL - max zL zR) : ∃ a, hrAmaxCeed P zL zR qL qR sn cn = some a ∧ 0 < a := by
  have hz : zL ≤ max zL zR := le_max_left _ _
  obtain ⟨sL, vL, -⟩ := velocitiesCeed_some (hAnuga := P.hAnuga) qL ht
  obtain ⟨sR, vR, -⟩ := velocitiesCeed_some (hAnuga := P.hAnuga) qR ht
  obtain ⟨tL, wL, hL⟩ := velocitiesCeed_some (hAnuga := P.hAnuga)
    ⟨max 0 (qL.h + zL - max zL zR), max 0 (qL.h + zL - max zL zR) * sL.u, max 0 (qL.h + zL - max zL zR) * sL.v⟩ ht
  obtain ⟨tR, wR, hR⟩ := velocitiesCeed_some (hAnuga := P.hAnuga)
    ⟨max 0 (qR.h + zR - max zL zR), max 0 (qR.h + zR - max zL zR) * sR.u, max 0 (qR.h + zR - max zL zR) * sR.v⟩ ht
  have hLp : P.tinyH < tL.h := by rw [hL]; exact lt_of_lt_of_le hw (le_max_right _ _)
  have hRp : 0 ≤ tR.h := by rw [hR]; exact le_max_left _ _
  refine ⟨roeC P.g tL.h tR.h + |uperp (roeAvg tL.h tR.h tL.u tR.u) (roeAvg tL.h tR.h tL.v tR.v) sn cn|, ?_, ?_⟩
  · unfold hrAmaxCeed
    rw [if_pos (Or.inl (by linarith))]
    unfold hrStateCeed
    rw [vL, vR]
    show hrSpeedCeed P _ _ sn cn = _
    unfold hrSpeedCeed
    rw [if_pos (Or.inl (lt_of_lt_of_le hw (le_max_right _ _)))]
    unfold roeFluxCeed
    rw [wL, wR]
    dsimp only [Option.bind_some]
    rw [if_pos (show RoeDefined tL.h tR.h from ⟨by linarith, hRp, by linarith⟩)]
    rfl
  · have : 0 < roeC P.g tL.h tR.h := by
      unfold roeC
      apply Real.sqrt_pos.mpr
      have : 0 < tL.h + tR.h := by linarith
      positivity
    have h2 := abs_nonneg (uperp (roeAvg tL.h tR.h tL.u tR.u) (roeAvg tL.h tR.h tL.v tR.v) sn cn)
    linarith

/-- C113 (Courant numbers) is violated: on every mesh and after any evaluations the vector of the field "courant_number" of the internal edges still holds the
zeros with which it was created (if libCEED finds zeros in an output that is not written), although in each of these evaluations the Courant number
of an edge beside water that stands above both beds is positive. So the number that is reported, and the adaptive time step, know nothing of the internal
edges. -/
theorem C113_courant_violated (P : FlowParams) (junk : Unwritten) (hz : ∀ d l k, junk d l 3 k = some 0) (hT : T.Valid nc n ne nv) (hV : V.Valid nc)
    {Bs : List Bnd} (hB : ∀ B ∈ Bs, B.Valid ne) (l : List (ℝ × Arr ℝ)) (hl : ∀ s ∈ l, s.2.len = 3 * nc) {ops ops' : List COp}
    (h1 : createFluxHRC P junk T V Bs = some ops) (h2 : fluxEvaluationsC nc l ops = some ops') (hg : 0 < P.g) (ht : 0 < P.tinyH)
    (hdt : ∀ s ∈ l, 0 < s.1) (harea : ∀ c, 0 < T.area.val c) (hlen : ∀ e, 0 < T.elen.val e) :
    ∃ v, ops'[0]?.bind (fun op => op.outVec 3) = some v ∧ (∀ e < T.internal.len, T.intOwned e = true → ∀ k < 2,
      v.val (2 * T.intBefore e + k) = some 0) ∧
      ∀ e, ∀ s ∈ l, P.tinyH < (stateAt s.2 (T.leftOf (T.internal.val e))).h + V.zcOf (T.leftOf (T.internal.val e)) -
          max (V.zcOf (T.leftOf (T.internal.val e))) (V.zcOf (T.R (T.internal.val e))) →
        ∀ k < 2, ∃ x, hrCourantOf P T V s.1 s.2 (T.internal.val e) k = some x ∧ 0 < x := by
  obtain ⟨ops0, e1, e2, cn, e3, e4⟩ := createFluxHRC_spec P junk hT hV hB
  obtain rfl : ops0 = ops := Option.some.inj (e1.symm.trans h1)
  obtain ⟨v, i1, i2⟩ := courantHR_untouched P junk hz hT hB l _ ops0 ops' cn hl e2 e3 h2
  refine ⟨v, i1, ?_, ?_⟩
  · intro e he ho k hk
    obtain ⟨k1, -⟩ := owned'_getD T T.internal ho _ he
    have h := i2 (T.owned' T.internal e).length (by rw [hT.count]; exact k1) k hk
    exact h.trans (by rw [e4]; rfl)
  · intro e s hs hw k hk
    obtain ⟨a, a1, a2⟩ := hrAmaxCeed_pos (P := P) (V.zcOf (T.leftOf (T.internal.val e))) (V.zcOf (T.R (T.internal.val e)))
      (T.sn.val (T.internal.val e)) (T.cn.val (T.internal.val e)) (qR := stateAt s.2 (T.R (T.internal.val e))) hg ht hw
    refine ⟨a * (T.elen.val (T.internal.val e) / T.area.val (if k = 0 then T.leftOf (T.internal.val e) else T.R (T.internal.val e))) * s.1, ?_, ?_⟩
    · unfold hrCourantOf
      rw [a1]
      rfl
    · exact mul_pos (mul_pos a2 (div_pos (hlen _) (harea _))) (hdt s hs)

/-- C113 (what the Courant number of a dry edge is): between two dry cells, and between cells whose water stands above neither bed, no wave runs. -/
theorem C113_no_waves {P : FlowParams} (ht : 0 < P.tinyH) (T : CTables) (V : BedTables) (dt : ℝ) (u : Arr ℝ) (id k : ℕ)
    (hd : ((stateAt u (T.leftOf id)).h ≤ P.tinyH ∧ (stateAt u (T.R id)).h ≤ P.tinyH) ∨
      ((stateAt u (T.leftOf id)).h + V.zcOf (T.leftOf id) - max (V.zcOf (T.leftOf id)) (V.zcOf (T.R id)) ≤ P.tinyH ∧
        (stateAt u (T.R id)).h + V.zcOf (T.R id) - max (V.zcOf (T.leftOf id)) (V.zcOf (T.R id)) ≤ P.tinyH)) :
    hrCourantOf P T V dt u id k = some 0 := by
  have key : hrAmaxCeed P (V.zcOf (T.leftOf id)) (V.zcOf (T.R id)) (stateAt u (T.leftOf id)) (stateAt u (T.R id)) (T.sn.val id) (T.cn.val id) = some 0 := by
    unfold hrAmaxCeed
    by_cases hw : (stateAt u (T.leftOf id)).h > P.tinyH ∨ (stateAt u (T.R id)).h > P.tinyH
    · rw [if_pos hw]
      rcases hd with ⟨h1, h2⟩ | ⟨h1, h2⟩
      · rcases hw with hw | hw <;> linarith
      · obtain ⟨sL, vL, -⟩ := velocitiesCeed_some (hAnuga := P.hAnuga) (stateAt u (T.leftOf id)) ht
        obtain ⟨sR, vR, -⟩ := velocitiesCeed_some (hAnuga := P.hAnuga) (stateAt u (T.R id)) ht
        unfold hrStateCeed
        rw [vL, vR]
        show hrSpeedCeed P _ _ _ _ = _
        unfold hrSpeedCeed
        rw [if_neg]
        rintro (h | h)
        · exact absurd (max_le ht.le h1) (not_le.mpr h)
        · exact absurd (max_le ht.le h2) (not_le.mpr h)
    · rw [if_neg hw]
  unfold hrCourantOf
  rw [key]
  show some _ = some _
  congr 1
  ring

/-! ### Examples: a lake beside an island -/

/-- the tables of `exSqT` for the CEED backend -/
noncomputable def exSqC : CTables :=
  { exSqT with vertexIds := ⟨14, fun _ => 0⟩, vz := ⟨6, fun v => if v < 2 then -1 else if v < 4 then 1 else 5⟩, numOwnedInternal := 1 }

theorem exSqC_valid : exSqC.Valid 2 2 7 6 where
  base := exSqT_valid
  edgeOwned := rfl
  l2o_lt := fun c h => h
  vertexIds := rfl
  vertex := fun k h => by show 0 < 6; omega
  vz := rfl
  two := by intro e he _; show (1 : ℤ) ≠ -1; decide
  count := by decide

/-- the cells, with the slopes of `exSqV` -/
noncomputable def exSqS : SCells := ⟨⟨2, fun _ => true⟩, ⟨2, fun c => c⟩, exSqV.dzdx, exSqV.dzdy, 2⟩

theorem exSqS_valid : exSqS.Valid 2 where
  owned := rfl
  l2o := rfl
  dzdx := rfl
  dzdy := rfl
  count := by decide
  number := by intro c hc _; interval_cases c <;> decide

theorem exSqC_internal : (ceedHRMeshOf exSqC exSqV [exSqB] 2).internal = (exSquares 3).internal := exSq_internal

theorem exSqC_boundary : (ceedHRMeshOf exSqC exSqV [exSqB] 2).boundary = (exSquares 3).boundary := exSq_boundary

theorem exSqC_edges : EdgesValid (ceedHRMeshOf exSqC exSqV [exSqB] 2) where
  left := by intro e he; rw [exSqC_internal] at he; exact (exSquares_valid 3).left e he
  right := by intro e he; rw [exSqC_internal] at he; exact (exSquares_valid 3).right e he
  cell := by intro e he; rw [exSqC_boundary] at he; exact (exSquares_valid 3).cell e he
  area := by intro c _; show (1 : ℝ) ≠ 0; norm_num

theorem exSqC_closed : ClosedCells (ceedHRMeshOf exSqC exSqV [exSqB] 2) := by
  intro c hc ho
  rw [exSqC_internal, exSqC_boundary]
  exact exSquares_closed 3 c hc ho

theorem exSqC_rest : RestBoundaries 1 (ceedHRMeshOf exSqC exSqV [exSqB] 2) := by
  intro e he
  rw [exSqC_boundary] at he
  left
  simp [exSquares] at he
  rcases he with h | h | h | h | h | h <;> subst h <;> rfl

example (junk : Unwritten) : ∃ ops ops', createFluxHRC exParams junk exSqC exSqV [exSqB] = some ops ∧
    fluxEvaluationsC 2 [(1, exSqU), (2, exSqU)] ops = some ops' :=
  C113_defined exParams junk exSqC_valid exSqV_valid exSqB_valid _ (by intro s hs; simp at hs; rcases hs with rfl | rfl <;> rfl)

/-- the lake stays at rest beside the island, with regularised velocities and after other states were evaluated -/
example (junk : Unwritten) (x : Arr ℝ) (hx : x.len = 6) : ∃ ops ops' op ops'' op'' rhs,
    createFluxHRC { exParams with hAnuga := 0.1 } junk exSqC exSqV [exSqB] = some ops ∧ fluxEvaluationsC 2 [(1, x), (2, exSqU)] ops = some ops' ∧
    createSourceC { exParams with hAnuga := 0.1 } .semiImplicit false exSqS = some op ∧
    applyCeedC 2 0.5 exSqU ⟨6, fun _ => 0⟩ ⟨2, fun _ => 0.03⟩ ops' op = some (ops'', op'', rhs) ∧ ∀ j < 6, rhs.val j = some 0 := by
  have hl : ∀ s ∈ [((1 : ℝ), x), (2, exSqU)], s.2.len = 3 * 2 := by
    intro s hs; simp at hs; rcases hs with rfl | rfl
    · exact hx
    · rfl
  obtain ⟨ops, ops', h1, h2⟩ := C113_defined { exParams with hAnuga := 0.1 } junk exSqC_valid exSqV_valid exSqB_valid _ hl
  obtain ⟨op, -, h3, -⟩ := C111_defined { exParams with hAnuga := 0.1 } .semiImplicit false exSqS_valid [] (fun a ha => absurd ha List.not_mem_nil)
  obtain ⟨ops'', op'', rhs, h4, h5⟩ := C113_rest { exParams with hAnuga := 0.1 } junk .semiImplicit exSqC_valid exSqV_valid exSqB_valid exSqS_valid
    (fun _ => rfl) rfl rfl _ hl [] (fun a ha => absurd ha List.not_mem_nil) h1 h2 h3 rfl 0.5 exSqU ⟨6, fun _ => 0⟩ ⟨2, fun _ => 0.03⟩ rfl rfl rfl
    (by norm_num [exParams]) (by norm_num [exParams]) (by norm_num [exParams]) exSqC_edges exSqC_closed (eta := 1) exSq_film exSqC_rest
    (fun _ => rfl) exSq_still
  exact ⟨ops, ops', op, ops'', op'', rhs, h1, h2, h3, h4, h5⟩

/-- the divergences vanish there as well, so the hypotheses of the theorems about them are met -/
example : ∃ d, ceedDivergence exParams true (ceedHRMeshOf exSqC exSqV [exSqB] 2) (stateAt exSqU) = some d ∧ d 0 = ⟨0, 0, 0⟩ ∧
    ∃ junk ops ops'' rhs, createFluxHRC exParams junk exSqC exSqV [exSqB] = some ops ∧
      fluxEvaluationC 2 1 exSqU ops = some (ops'', rhs) ∧ rhs.val 1 = some 0 := by
  obtain ⟨d, h1, h2⟩ := ceedDivergence_rest (P := exParams) (pm := ceedHRMeshOf exSqC exSqV [exSqB] 2) (u := stateAt exSqU) (eta := 1)
    (by norm_num [exParams]) (by norm_num [exParams]) (by norm_num [exParams]) (fun _ => rfl) (fun _ _ => rfl) exSqC_edges exSqC_closed
    exSq_film exSqC_rest (fun c hc => by
      rw [exSq_still c hc]
      show restState 1 (cornerMean exSqV c) = restState 1 (exSqV.zcOf c)
      rw [← cornerMean_eq exSqV c rfl])
  have h0 : d 0 = ⟨0, 0, 0⟩ := h2 0 (by show 0 < 2; omega)
  obtain ⟨ops, -, e1, -⟩ := C113_defined exParams (fun _ _ _ _ => some 3) exSqC_valid exSqV_valid exSqB_valid [] (by intro s hs; simp at hs)
  obtain ⟨ops'', rhs, e2, -, e3, -⟩ := C113_divergence exParams (fun _ _ _ _ => some 3) exSqC_valid exSqV_valid exSqB_valid [] (by intro s hs; simp at hs) 1 exSqU rfl
    e1 rfl
  refine ⟨d, h1, h0, _, ops, ops'', rhs, e1, e2, ?_⟩
  have := e3 d h1 0 1 (by omega)
  rw [h0] at this
  exact this

/-- the same through the whole right-hand side with rain of 0.5 on the first cell -/
example (junk : Unwritten) {ops : List COp} {op : COp} (h1 : createFluxHRC exParams junk exSqC exSqV [exSqB] = some ops)
    (h3 : createSourceC exParams .xq2018 false exSqS = some op) {f : ℕ → Flux}
    (hf : ceedRhs exParams .xq2018 true { ceedMeshOf exSqC [exSqB] 2 with zc := exSqV.zcOf } 1
      (fun c => ⟨(if 3 * c = 0 then 0.5 else 0), (if 3 * c + 1 = 0 then 0.5 else 0), (if 3 * c + 2 = 0 then 0.5 else 0)⟩) (fun _ => 0.03) (stateAt exSqU) = some f) :
    ∃ ops'' op'' rhs, applyCeedC 2 1 exSqU ⟨6, fun j => if j = 0 then 0.5 else 0⟩ ⟨2, fun _ => 0.03⟩ ops op = some (ops'', op'', rhs) ∧
      rhs.len = 3 * 2 ∧ ∀ c < 2, ∀ k < 3, rhs.val (3 * c + k) = some ((f c).comp k) :=
  C113_rhs exParams junk .xq2018 exSqC_valid exSqV_valid exSqB_valid exSqS_valid (fun _ _ => rfl) rfl rfl [] (by intro s hs; simp at hs) []
    (by intro s hs; simp at hs) h1 rfl h3 rfl 1 exSqU ⟨6, fun j => if j = 0 then 0.5 else 0⟩ ⟨2, fun _ => 0.03⟩ rfl rfl rfl hf

/-- the second evaluation adds the Courant numbers of the only internal edge to row 0 of the vector "flux" -/
example (junk : Unwritten) {ops ops' ops'' : List COp} {rhs : Arr Num} (h1 : createFluxHRC exParams junk exSqC exSqV [exSqB] = some ops)
    (h2 : fluxEvaluationsC 2 [(1, exSqU)] ops = some ops') (h3 : fluxEvaluationC 2 2 exSqU ops' = some (ops'', rhs)) :
    ∃ v v', ops'[0]?.bind (fun op => op.outVec 2) = some v ∧ ops''[0]?.bind (fun op => op.outVec 2) = some v' ∧
      v'.val 1 = (v.val 1).add (hrCourantOf exParams exSqC exSqV 2 exSqU 0 1) := by
  obtain ⟨v, v', i1, i2, i3⟩ := C113_courant_partial exParams junk exSqC_valid exSqV_valid exSqB_valid [(1, exSqU)]
    (by intro s hs; simp at hs; obtain rfl := hs; rfl) 2 exSqU rfl h1 h2 h3
  exact ⟨v, v', i1, i2, i3 0 (by decide) rfl 1 (by omega)⟩

/-- water of depth 5 in the first cell, above the island: its Courant number is positive, but the vector "courant_number" still holds 0 -/
example : ∃ ops ops' v, createFluxHRC exParams (fun _ _ _ _ => some 0) exSqC exSqV [exSqB] = some ops ∧
    fluxEvaluationsC 2 [(1, ⟨6, fun j => if j = 0 then 5 else 0⟩)] ops = some ops' ∧ ops'[0]?.bind (fun op => op.outVec 3) = some v ∧
    v.val 0 = some 0 ∧ ∃ x, hrCourantOf exParams exSqC exSqV 1 ⟨6, fun j => if j = 0 then 5 else 0⟩ 0 0 = some x ∧ 0 < x := by
  have hl : ∀ s ∈ [((1 : ℝ), (⟨6, fun j => if j = 0 then (5 : ℝ) else 0⟩ : Arr ℝ))], s.2.len = 3 * 2 := by
    intro s hs; simp at hs; obtain rfl := hs; rfl
  obtain ⟨ops, ops', h1, h2⟩ := C113_defined exParams (fun _ _ _ _ => some 0) exSqC_valid exSqV_valid exSqB_valid _ hl
  obtain ⟨v, h3, h4, h5⟩ := C113_courant_violated exParams (fun _ _ _ _ => some 0) (fun _ _ _ => rfl) exSqC_valid exSqV_valid exSqB_valid _ hl h1 h2
    (by norm_num [exParams]) (by norm_num [exParams]) (by intro s hs; simp at hs; obtain rfl := hs; norm_num) (fun _ => by show (0 : ℝ) < 1; norm_num)
    (fun _ => by show (0 : ℝ) < 1; norm_num)
  refine ⟨ops, ops', v, h1, h2, h3, h4 0 (by decide) rfl 0 (by omega), h5 0 _ List.mem_cons_self ?_ 0 (by omega)⟩
  have z0 : exSqV.zcOf (exSqC.leftOf (exSqC.internal.val 0)) = 0 := (cornerMean_eq exSqV 0 rfl).trans ((exSq_mean 0 (by omega)).trans (by simp))
  have z1 : exSqV.zcOf (exSqC.R (exSqC.internal.val 0)) = 3 := (cornerMean_eq exSqV 1 rfl).trans ((exSq_mean 1 (by omega)).trans (by simp))
  have hs : (stateAt (⟨6, fun j => if j = 0 then (5 : ℝ) else 0⟩ : Arr ℝ) (exSqC.leftOf (exSqC.internal.val 0))).h = 5 := by
    show (if 3 * 0 = 0 then (5 : ℝ) else 0) = 5
    simp
  rw [z0, z1, hs]
  norm_num [exParams]

/-- water of depth 1 in the first cell does not reach the island: no waves -/
example : hrCourantOf exParams exSqC exSqV 1 exSqU 0 0 = some 0 := by
  have z0 : exSqV.zcOf (exSqC.leftOf 0) = 0 := (cornerMean_eq exSqV 0 rfl).trans ((exSq_mean 0 (by omega)).trans (by simp))
  have z1 : exSqV.zcOf (exSqC.R 0) = 3 := (cornerMean_eq exSqV 1 rfl).trans ((exSq_mean 1 (by omega)).trans (by simp))
  have h0 : (stateAt exSqU (exSqC.leftOf 0)).h = 1 := by
    show (if 3 * 0 = 0 then (1 : ℝ) else 0) = 1
    simp
  have h1 : (stateAt exSqU (exSqC.R 0)).h = 0 := by
    show (if 3 * 1 = 0 then (1 : ℝ) else 0) = 0
    simp
  refine C113_no_waves (by norm_num [exParams]) exSqC exSqV 1 exSqU 0 0 (Or.inr ?_)
  rw [z0, z1, h0, h1]
  norm_num [exParams]

end RDy
