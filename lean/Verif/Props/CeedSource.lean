import Verif.Lemmas.CeedSource
import Verif.Props.CeedOp
import Verif.Props.DecompositionCeed
import Verif.Props.BackendsRhs
import Mathlib.Tactic

/-!
# The source operator of the CEED backend as it is put together (C111)

`createSourceC` builds the operator from the arrays of the mesh, `sourceEvaluationC` is the part of the right-hand side that adds the sources,
`applyCeedC` the whole right-hand side on one process. Sources, Manning coefficients and flux divergences are stored by owned cell, the
solution by local cell.
-/

namespace RDy

open Finset

/-! ### Specification -/

/-- Specification: the right-hand side of an owned cell `c` with its own slope and state, and the source, the Manning coefficient and the flux
divergence stored under its owned number `o`. -/
noncomputable def SCells.rhsOf (S : SCells) (P : FlowParams) (m : FrictionMethod) (slope : Bool) (a : SCall) (c o : ℕ) : Option Flux :=
  cellRhsCeed P m slope (S.dzdx.val c) (S.dzdy.val c) a.dt (a.mat.val o)
    ⟨a.ext.val (3 * o), a.ext.val (3 * o + 1), a.ext.val (3 * o + 2)⟩
    ⟨a.fd.val (3 * o), a.fd.val (3 * o + 1), a.fd.val (3 * o + 2)⟩
    ⟨a.u.val (3 * c), a.u.val (3 * c + 1), a.u.val (3 * c + 2)⟩

/-- Specification: depth and velocities of local cell `c`. -/
noncomputable def primOf (P : FlowParams) (u : Arr ℝ) (c k : ℕ) : Num :=
  (velocitiesCeed P.tinyH P.hAnuga ⟨u.val (3 * c), u.val (3 * c + 1), u.val (3 * c + 2)⟩).map fun s =>
    if k = 0 then s.h else if k = 1 then s.u else s.v

/-- Specification: the arrays of the cells as the mesh numbers them. -/
def cellsOf (own : ℕ → Bool) (n : ℕ) (dzdx dzdy : ℕ → ℝ) : SCells :=
  ⟨⟨n, own⟩, ⟨n, fun c => ((numberCells own n).l2o c).toNat⟩, ⟨n, dzdx⟩, ⟨n, dzdy⟩, numOwned own n⟩

/-! ### The numbering -/

/-- C111 (hypothesis on the cells): the numbering that the mesh makes (C16) is one in which the operator's count of owned cells and
`local_to_owned` agree, whatever cells are owned. -/
theorem C111_numbering (own : ℕ → Bool) (n : ℕ) (dzdx dzdy : ℕ → ℝ) : (cellsOf own n dzdx dzdy).Valid n where
  owned := rfl
  l2o := rfl
  dzdx := rfl
  dzdy := rfl
  count := numOwned_eq own n
  number := by
    intro c hc ho
    obtain ⟨-, a2, -, -⟩ := ownedLoop own n
    obtain ⟨-, b2, -⟩ := ghostLoop own ((List.range n).foldl (numOwnedStep own) NumState.init) n
    have ho' : own c = true := ho
    show ((numberCells own n).l2o c).toNat = _
    have h : (numberCells own n).l2o c = ownedBelow own c := by
      unfold numberCells
      rw [b2 c, if_neg (by simp [ho']), a2 c, if_pos ⟨hc, ho'⟩]
    rw [h]
    rfl

example : (cellsOf (fun c => c % 2 == 1) 5 (fun c => c) fun _ => 0).Valid 5 := C111_numbering _ _ _ _

/-! ### Evaluations -/

/-- C111 (definedness): the operator can be built and evaluated any number of times without an access outside an array and without the use of
an offset that was not set. -/
theorem C111_defined (P : FlowParams) (m : FrictionMethod) (slope : Bool) {S : SCells} {n : ℕ} (hS : S.Valid n) (l : List SCall)
    (hl : ∀ a ∈ l, a.Fits S n) :
    ∃ op op', createSourceC P m slope S = some op ∧ sourceEvaluationsC S.numOwned op l = some op' := by
  obtain ⟨op, h1, h2⟩ := createSource_state P m slope hS
  obtain ⟨op', h3, -⟩ := sourceEvaluations_state P m slope hS l op hl h2
  exact ⟨op, op', h1, h3⟩

/-- C111 (what an evaluation gives): whatever was evaluated before, the entry of an owned cell is the right-hand side of that cell, and the
vectors of primitive variables and of sources hold the values of *this* evaluation. -/
theorem C111_cells (P : FlowParams) (m : FrictionMethod) (slope : Bool) {S : SCells} {n : ℕ} (hS : S.Valid n) (l : List SCall)
    (hl : ∀ a ∈ l, a.Fits S n) {a : SCall} (ha : a.Fits S n) {op op' : COp} (h1 : createSourceC P m slope S = some op)
    (h2 : sourceEvaluationsC S.numOwned op l = some op') :
    ∃ op'' rhs pv si, sourceEvaluationC S.numOwned op' a = some (op'', rhs) ∧ op''.outVec 1 = some pv ∧ op''.outVec 2 = some si ∧
      rhs.len = 3 * S.numOwned ∧ pv.len = 3 * S.numOwned ∧ si.len = 3 * S.numOwned ∧
      ∀ c < n, S.owned.val c = true → ∀ k < 3,
        rhs.val (3 * S.l2o.val c + k) = ((S.rhsOf P m slope a c (S.l2o.val c)).map fun f => f.comp k) ∧
        pv.val (3 * S.l2o.val c + k) = primOf P a.u c k ∧
        si.val (3 * S.l2o.val c + k) = some (a.ext.val (3 * S.l2o.val c + k)) := by
  obtain ⟨op0, e1, e2⟩ := createSource_state P m slope hS
  obtain rfl : op0 = op := Option.some.inj (e1.symm.trans h1)
  obtain ⟨op1, e3, g, o, x, y, z, pv, si, e4, e5, e6, rfl⟩ := sourceEvaluations_state P m slope hS l op0 hl e2
  obtain rfl := Option.some.inj (e3.symm.trans h2)
  obtain ⟨pv', si', rhs, i1, i2, i3, i4, i5⟩ := sourceEvaluation_spec P m slope hS e4 ha x y z e5 e6
  refine ⟨_, rhs, pv', si', i1, rfl, rfl, i4, i2, i3, ?_⟩
  intro c hc ho k hk
  obtain ⟨j1, j2⟩ := ownedList_getD S hc ho
  have h := i5 (S.ownedList c).length (by rw [hS.count]; exact j1) k hk
  rw [j2] at h
  rw [hS.number c hc ho]
  exact h

private theorem getD_inj {l : List ℕ} (h : l.Nodup) {i j : ℕ} (hi : i < l.length) (hj : j < l.length) (he : l.getD i 0 = l.getD j 0) : i = j := by
  rw [List.getD_eq_getElem?_getD, List.getD_eq_getElem?_getD, List.getElem?_eq_getElem hi, List.getElem?_eq_getElem hj] at he
  exact (List.Nodup.getElem_inj_iff h).mp he

/-- C111 (every entry is written): each place of the right-hand side belongs to exactly one owned cell. -/
theorem C111_covered {S : SCells} {n : ℕ} (hS : S.Valid n) :
    ∀ o < S.numOwned, ∃! c, c < n ∧ S.owned.val c = true ∧ S.l2o.val c = o := by
  intro o ho
  have ho' : o < (S.ownedList n).length := by rw [← hS.count]; exact ho
  obtain ⟨m1, m2⟩ := ownedList_mem (getD_mem' ho')
  have key : ∀ c < n, S.owned.val c = true → ∀ c' < n, S.owned.val c' = true → S.l2o.val c = S.l2o.val c' → c = c' := by
    intro c hc h c' hc' h' he
    rw [hS.number c hc h, hS.number c' hc' h'] at he
    rw [← (ownedList_getD S hc h).2, ← (ownedList_getD S hc' h').2, he]
  have hnum : S.l2o.val ((S.ownedList n).getD o 0) = o := by
    obtain ⟨j1, j2⟩ := ownedList_getD S m1 m2
    rw [hS.number _ m1 m2]
    exact getD_inj (List.nodup_range.filter _) j1 ho' j2
  exact ⟨_, ⟨m1, m2, hnum⟩, fun c hc => key c hc.1 hc.2.1 _ m1 m2 (hc.2.2.trans hnum.symm)⟩

/-- C111: two runs with different histories give the same right-hand side, primitive variables and recorded sources. -/
theorem C111_no_history (P : FlowParams) (m : FrictionMethod) (slope : Bool) {S : SCells} {n : ℕ} (hS : S.Valid n) (l l' : List SCall)
    (hl : ∀ a ∈ l, a.Fits S n) (hl' : ∀ a ∈ l', a.Fits S n) {a : SCall} (ha : a.Fits S n) {op op1 op2 : COp}
    (h1 : createSourceC P m slope S = some op) (h2 : sourceEvaluationsC S.numOwned op l = some op1)
    (h3 : sourceEvaluationsC S.numOwned op l' = some op2) :
    ∃ r r' v v' w w', sourceEvaluationC S.numOwned op1 a = some r ∧ sourceEvaluationC S.numOwned op2 a = some r' ∧
      r.1.outVec 1 = some v ∧ r'.1.outVec 1 = some v' ∧ r.1.outVec 2 = some w ∧ r'.1.outVec 2 = some w' ∧
      ∀ i < 3 * S.numOwned, r.2.val i = r'.2.val i ∧ v.val i = v'.val i ∧ w.val i = w'.val i := by
  obtain ⟨o1, rhs, pv, si, i1, i2, i3, -, -, -, i4⟩ := C111_cells P m slope hS l hl ha h1 h2
  obtain ⟨o2, rhs', pv', si', j1, j2, j3, -, -, -, j4⟩ := C111_cells P m slope hS l' hl' ha h1 h3
  refine ⟨_, _, pv, pv', si, si', i1, j1, i2, j2, i3, j3, ?_⟩
  intro i hi
  obtain ⟨c, ⟨c1, c2, c3⟩, -⟩ := C111_covered hS (i / 3) (by omega)
  have a1 := i4 c c1 c2 (i % 3) (by omega)
  have a2 := j4 c c1 c2 (i % 3) (by omega)
  rw [c3, Nat.div_add_mod i 3] at a1 a2
  exact ⟨a1.1.trans a2.1.symm, a1.2.1.trans a2.2.1.symm, a1.2.2.trans a2.2.2.symm⟩

/-! ### The whole right-hand side on one process -/

theorem sources_fold (P : FlowParams) (m : FrictionMethod) (slope : Bool) (pm : PMesh) (dt : ℝ) (src : ℕ → Flux) (mann : ℕ → ℝ)
    (fd : ℕ → Flux) (u : ℕ → Cons) : ∀ (N : ℕ) (f g : ℕ → Flux), (∀ c < N, pm.owned c = true) → (∀ c < N, pm.l2o c = c) →
      (List.range N).foldlM (ceedSourceCell P m slope pm dt src mann fd u) f = some g →
      (∀ c < N, cellRhsCeed P m slope (pm.dzdx c) (pm.dzdy c) dt (mann c) (src c) (fd c) (u c) = some (g c)) := by
  intro N
  induction N with
  | zero => intro f g _ _ _ c hc; exact absurd hc (Nat.not_lt_zero _)
  | succ N ih =>
    intro f g ho hl h c hc
    rw [List.range_succ, List.foldlM_append] at h
    obtain ⟨g', h1, h2⟩ := Option.bind_eq_some_iff.mp h
    have h3 : ceedSourceCell P m slope pm dt src mann fd u g' N = some g := by
      rw [List.foldlM_cons] at h2
      obtain ⟨g2, h4, h5⟩ := Option.bind_eq_some_iff.mp h2
      rw [h4]; exact h5
    unfold ceedSourceCell at h3
    rw [if_pos (ho N (Nat.lt_succ_self N)), hl N (Nat.lt_succ_self N)] at h3
    obtain ⟨F, h4, h5⟩ := Option.map_eq_some_iff.mp h3
    by_cases hcN : c = N
    · subst hcN
      rw [h4, ← h5, Function.update_self]
    · rw [← h5, Function.update_of_ne hcN]
      exact ih f g' (fun c hc => ho c (by omega)) (fun c hc => hl c (by omega)) h1 c (by omega)

theorem allOwned_l2o {S : SCells} {n : ℕ} (hS : S.Valid n) (ho : ∀ c < n, S.owned.val c = true) :
    S.numOwned = n ∧ ∀ c < n, S.l2o.val c = c := by
  have key : ∀ k ≤ n, (S.ownedList k).length = k := by
    intro k
    induction k with
    | zero => intro _; rfl
    | succ k ih =>
      intro hk
      rw [ownedList_succ, if_pos (ho k (by omega)), List.length_append, ih (by omega)]
      rfl
  exact ⟨hS.count.trans (key n le_rfl), fun c hc => (hS.number c hc (ho c hc)).trans (key c (by omega))⟩

theorem realVec_some {a : Arr Num} {N : ℕ} (hl : a.len = 3 * N) (f : ℕ → Flux) (h : ∀ c, ∀ k < 3, a.val (3 * c + k) = some ((f c).comp k)) :
    ∃ b, realVec a = some b ∧ b.len = 3 * N ∧ ∀ c, fluxAt b c = f c := by
  refine ⟨⟨a.len, fun i => (a.val i).getD 0⟩, if_pos ?_, hl, ?_⟩
  · intro i _
    have := h (i / 3) (i % 3) (by omega)
    rw [Nat.div_add_mod i 3] at this
    rw [this]; rfl
  · intro c
    have h0 : a.val (3 * c) = _ := h c 0 (by omega)
    unfold fluxAt
    dsimp only
    rw [h0, h c 1 (by omega), h c 2 (by omega)]
    rfl

/-- C111 (the right-hand side on one process): whatever was evaluated before, the assembled operators give for every cell the right-hand side
that the edges and cells give one by one (`ceedRhs`, for which C48, C42, C36 … are stated). -/
theorem C111_rhs (P : FlowParams) (m : FrictionMethod) {T : CTables} {nc n ne nv : ℕ} (hT : T.Valid nc n ne nv) {Bs : List Bnd}
    (hB : ∀ B ∈ Bs, B.Valid ne) {S : SCells} (hS : S.Valid nc) (hown : ∀ c < nc, S.owned.val c = true) (hTS : T.owned = S.owned)
    (hTl : T.l2o = S.l2o) (l : List (ℝ × Arr ℝ)) (hl : ∀ s ∈ l, s.2.len = 3 * nc) (l' : List SCall) (hl' : ∀ a ∈ l', a.Fits S nc)
    {ops ops' : List COp} {op op' : COp} (h1 : createFluxC P T T.vz Bs = some ops) (h2 : fluxEvaluationsC nc l ops = some ops')
    (h3 : createSourceC P m true S = some op) (h4 : sourceEvaluationsC nc op l' = some op') (dt : ℝ) (u ext mat : Arr ℝ)
    (hu : u.len = 3 * nc) (he : ext.len = 3 * nc) (hm : mat.len = nc) {f : ℕ → Flux}
    (hf : ceedRhs P m false { ceedMeshOf T Bs nc with dzdx := S.dzdx.val, dzdy := S.dzdy.val } dt
      (fun c => ⟨ext.val (3 * c), ext.val (3 * c + 1), ext.val (3 * c + 2)⟩) mat.val (stateAt u) = some f) :
    ∃ ops'' op'' rhs, applyCeedC nc dt u ext mat ops' op' = some (ops'', op'', rhs) ∧ rhs.len = 3 * nc ∧
      ∀ c < nc, ∀ k < 3, rhs.val (3 * c + k) = some ((f c).comp k) := by
  obtain ⟨hn, hid⟩ := allOwned_l2o hS hown
  unfold ceedRhs at hf
  obtain ⟨d, hd, hfold⟩ := Option.bind_eq_some_iff.mp hf
  obtain ⟨ops'', r, e1, e2, e3, -⟩ := C110_divergence P hT hB l hl dt u hu h1 h2
  obtain ⟨b, b1, b2, b3⟩ := realVec_some e2 d (e3 d hd)
  have hfit : (⟨dt, u, ext, mat, b⟩ : SCall).Fits S nc := ⟨hu, by rw [hn]; exact he, by rw [hn, Nat.one_mul]; exact hm, by rw [hn]; exact b2⟩
  obtain ⟨op'', rhs, pv, si, i1, -, -, i2, -, -, i3⟩ := C111_cells P m true hS l' hl' hfit h3 (by rw [hn]; exact h4)
  rw [hn] at i1 i2
  have hrest := sources_fold P m (!false) { ceedMeshOf T Bs nc with dzdx := S.dzdx.val, dzdy := S.dzdy.val } dt _ mat.val d (stateAt u) nc d f
    (fun c hc => by show T.owned.val c = true; rw [hTS]; exact hown c hc)
    (fun c hc => by show T.l2o.val c = c; rw [hTl]; exact hid c hc) hfold
  refine ⟨ops'', op'', rhs, ?_, i2, ?_⟩
  · unfold applyCeedC
    rw [e1]
    show (realVec r).bind _ = _
    rw [b1]
    show Option.map _ (sourceEvaluationC nc op' _) = _
    rw [i1]
    rfl
  · intro c hc k hk
    have h5 := (i3 c hc (hown c hc) k hk).1
    rw [hid c hc] at h5
    rw [h5]
    have h6 := hrest c hc
    rw [← b3 c] at h6
    have h7 : S.rhsOf P m true ⟨dt, u, ext, mat, b⟩ c c = some (f c) := h6
    rw [h7]
    rfl

/-- C111 (both backends, the part that holds): on one process, for friction by XQ2018 or without regularised velocities, in any state in which no
depth equals the dry threshold and at regular boundary edges, the assembled CEED operators give the right-hand side of the PETSc backend,
whatever was evaluated before. Missing: the states in which the backends differ, see `C48_rhs_partial`. -/
theorem C111_backends_partial (P : FlowParams) (m : FrictionMethod) (hg : 0 < P.g) (ht : 0 < P.tinyH) (hx : 0 < P.xqThreshold)
    (hm : m = .xq2018 ∨ P.hAnuga = 0) {T : CTables} {nc n ne nv : ℕ} (hT : T.Valid nc n ne nv) {Bs : List Bnd}
    (hB : ∀ B ∈ Bs, B.Valid ne) {S : SCells} (hS : S.Valid nc) (hown : ∀ c, S.owned.val c = true) (hTS : T.owned = S.owned)
    (hTl : T.l2o = S.l2o) (l : List (ℝ × Arr ℝ)) (hl : ∀ s ∈ l, s.2.len = 3 * nc) (l' : List SCall) (hl' : ∀ a ∈ l', a.Fits S nc)
    {ops ops' : List COp} {op op' : COp} (h1 : createFluxC P T T.vz Bs = some ops) (h2 : fluxEvaluationsC nc l ops = some ops')
    (h3 : createSourceC P m true S = some op) (h4 : sourceEvaluationsC nc op l' = some op') {dt : ℝ} (hdt : 0 ≤ dt) (u ext mat : Arr ℝ)
    (hu : u.len = 3 * nc) (he : ext.len = 3 * nc) (hmat : mat.len = nc) (hpos : ∀ c, 0 ≤ (stateAt u c).h)
    (hne : ∀ c < nc, (stateAt u c).h ≠ P.tinyH) (hv : EdgesValid (ceedMeshOf T Bs nc))
    (hb : ∀ e ∈ (ceedMeshOf T Bs nc).boundary, RegularEdge P (stateAt u e.cell) e)
    (hbq : ∀ e ∈ (ceedMeshOf T Bs nc).boundary, ∀ qb, e.bc = .dirichlet qb → 0 ≤ qb.h) :
    ∃ ops'' op'' r f, applyCeedC nc dt u ext mat ops' op' = some (ops'', op'', r) ∧
      rhs P m false { ceedMeshOf T Bs nc with dzdx := S.dzdx.val, dzdy := S.dzdy.val } dt
        (fun c => ⟨ext.val (3 * c), ext.val (3 * c + 1), ext.val (3 * c + 2)⟩) mat.val (stateAt u) = some f ∧
      ∀ c < nc, ∀ k < 3, r.val (3 * c + k) = some ((f c).comp k) := by
  obtain ⟨hn, hid⟩ := allOwned_l2o hS fun c _ => hown c
  have hd := C39_rhs_defined m false { ceedMeshOf T Bs nc with dzdx := S.dzdx.val, dzdy := S.dzdy.val } (dt := dt)
    (fun c => ⟨ext.val (3 * c), ext.val (3 * c + 1), ext.val (3 * c + 2)⟩) mat.val (u := stateAt u) hg ht hx hdt hpos hbq
  obtain ⟨f, hf⟩ := Option.isSome_iff_exists.mp hd
  have hc := C48_rhs_partial (P := P) m false (pm := { ceedMeshOf T Bs nc with dzdx := S.dzdx.val, dzdy := S.dzdy.val }) dt
    (fun c => ⟨ext.val (3 * c), ext.val (3 * c + 1), ext.val (3 * c + 2)⟩) mat.val (u := stateAt u) hg ht hm
    (fun c => by show T.owned.val c = true; rw [hTS]; exact hown c) ⟨hv.1, hv.2, hv.3, hv.4⟩
    (by
      intro c hc c' hc' _ _ h
      have a1 : T.l2o.val c = c := by rw [hTl]; exact hid c hc
      have a2 : T.l2o.val c' = c' := by rw [hTl]; exact hid c' hc'
      have h' : T.l2o.val c = T.l2o.val c' := h
      rw [a1, a2] at h'
      exact h') hne hb (fun h => absurd h (by decide))
  obtain ⟨ops'', op'', r, i1, -, i2⟩ := C111_rhs P m hT hB hS (fun c _ => hown c) hTS hTl l hl l' hl' h1 h2 h3 h4 dt u ext mat hu he hmat
    (hc.trans hf)
  exact ⟨ops'', op'', r, f, i1, hf, i2⟩

/-! ### Several processes -/

private theorem num_fold (N : ℕ) (x : ℕ → ℝ) (q : ℕ → Prop) [DecidablePred q] (y : ℕ → Num) (hy : ∀ c < N, y c = some (x c)) (s : ℝ) :
    (List.range N).foldl (fun (s : Num) (c : ℕ) => if q c then s.add (y c) else s) (some s) =
      some (s + ∑ c ∈ range N, if q c then x c else 0) := by
  induction N with
  | zero => simp
  | succ N ih =>
    rw [List.range_succ, List.foldl_append, ih fun c hc => hy c (by omega), Finset.sum_range_succ]
    show (if q N then Num.add _ (y N) else _) = _
    by_cases h : q N
    · rw [if_pos h, if_pos h, hy N (by omega), Num.some_add, add_assoc]
    · rw [if_neg h, if_neg h, add_zero]

theorem localToGlobalC_some {np : ℕ} (nc : Fin np → ℕ) (gid : Fin np → ℕ → ℕ) (r : Fin np → Arr Num) (f : Fin np → ℕ → Flux) (k : ℕ)
    (h : ∀ p, ∀ c < nc p, (r p).val (3 * c + k) = some ((f p c).comp k)) (γ : ℕ) :
    localToGlobalC nc gid r γ k = some (localToGlobalAdd nc gid f (fun F => F.comp k) γ) := by
  unfold localToGlobalC localToGlobalAdd
  have key : ∀ (l : List (Fin np)) (s : ℝ), l.foldl (fun (s : Num) (p : Fin np) =>
      (List.range (nc p)).foldl (fun (s : Num) (c : ℕ) => if gid p c = γ then s.add ((r p).val (3 * c + k)) else s) s) (some s) =
      some (s + (l.map fun p => ∑ i ∈ range (nc p), if gid p i = γ then (f p i).comp k else 0).sum) := by
    intro l
    induction l with
    | nil => intro s; simp
    | cons p l ih =>
      intro s
      rw [List.foldl_cons, num_fold (nc p) (fun c => (f p c).comp k) (fun c => gid p c = γ) (fun c => (r p).val (3 * c + k)) (h p) s, ih,
        List.map_cons, List.sum_cons, add_assoc]
  rw [key, zero_add, ← List.ofFn_eq_map, List.sum_ofFn]

theorem linF_comp (k : ℕ) : LinF fun F => F.comp k := by
  have h : (fun F : Flux => F.comp k) = Flux.m ∨ (fun F : Flux => F.comp k) = Flux.x ∨ (fun F : Flux => F.comp k) = Flux.y := by
    by_cases h0 : k = 0
    · left; funext F; unfold Flux.comp; rw [if_pos h0]
    · by_cases h1 : k = 1
      · right; left; funext F; unfold Flux.comp; rw [if_neg h0, if_pos h1]
      · right; right; funext F; unfold Flux.comp; rw [if_neg h0, if_neg h1]
  rcases h with h | h | h <;> rw [h]
  exacts [linF_m, linF_x, linF_y]

/-- C111 (several processes, the part that holds): on every division of the mesh with the owned cells first in the local numbering, whatever was
evaluated before, each process gives each of its cells the right-hand side of the undivided problem: the flux divergence there, with the slope,
source, roughness and state of the cell. `fd p` is the process's part of the global vector. Missing: local numberings in which a ghost cell
precedes an owned one (`C73_ceed_numbering_violated`), and fluxes that are NaN. -/
theorem C111_processes_partial {Q : GProblem} (P : FlowParams) (m : FrictionMethod) (hg : 0 ≤ P.g) {np : ℕ} {T : Fin np → CTables}
    {Bs : Fin np → List Bnd} {S : Fin np → SCells} {nc ni ne nv : Fin np → ℕ} (hT : ∀ p, (T p).Valid (nc p) (ni p) (ne p) (nv p))
    (hB : ∀ p, ∀ B ∈ Bs p, B.Valid (ne p)) (hS : ∀ p, (S p).Valid (nc p)) {gid : Fin np → ℕ → ℕ} {eowner : GEdge → Fin np}
    {bowner : BEdge → Fin np} (hD : CeedDivides Q (fun p => ceedMeshOf (T p) (Bs p) (nc p)) gid eowner bowner)
    (hof : ∀ p, OwnedFirst (ceedMeshOf (T p) (Bs p) (nc p)))
    {ops ops' : Fin np → List COp} {op op' : Fin np → COp} (l : Fin np → List (ℝ × Arr ℝ)) (hl : ∀ p, ∀ s ∈ l p, s.2.len = 3 * nc p)
    (l' : Fin np → List SCall) (hl' : ∀ p, ∀ a ∈ l' p, a.Fits (S p) (nc p))
    (h1 : ∀ p, createFluxC P (T p) (T p).vz (Bs p) = some (ops p)) (h2 : ∀ p, fluxEvaluationsC (nc p) (l p) (ops p) = some (ops' p))
    (h3 : ∀ p, createSourceC P m true (S p) = some (op p)) (h4 : ∀ p, sourceEvaluationsC (S p).numOwned (op p) (l' p) = some (op' p))
    (dt : ℝ) (U : ℕ → Cons) (u ext mat : Fin np → Arr ℝ) (hu : ∀ p, (u p).len = 3 * nc p) (hU : ∀ p, stateAt (u p) = fun c => U (gid p c))
    (he : ∀ p, (ext p).len = 3 * (S p).numOwned) (hm : ∀ p, (mat p).len = (S p).numOwned) (f : Fin np → ℕ → Flux)
    (hf : ∀ p, ceedDivergence P false (ceedMeshOf (T p) (Bs p) (nc p)) (stateAt (u p)) = some (f p)) :
    ∃ r : Fin np → Arr Num, (∀ p, ∃ o, fluxEvaluationC (nc p) dt (u p) (ops' p) = some (o, r p)) ∧
      ∀ fd : Fin np → Arr ℝ, (∀ p, (fd p).len = 3 * (S p).numOwned) →
        (∀ p, ∀ c < nc p, (S p).owned.val c = true → ∀ k < 3,
          localToGlobalC nc gid r (gid p c) k = some ((fd p).val (3 * (S p).l2o.val c + k))) →
        ∀ p, ∃ o rhs, sourceEvaluationC (S p).numOwned (op' p) ⟨dt, u p, ext p, mat p, fd p⟩ = some (o, rhs) ∧
          ∀ c < nc p, (S p).owned.val c = true → ∀ k < 3, rhs.val (3 * (S p).l2o.val c + k) =
            ((cellRhsCeed P m true ((S p).dzdx.val c) ((S p).dzdy.val c) dt ((mat p).val ((S p).l2o.val c))
              (fluxAt (ext p) ((S p).l2o.val c))
              ⟨Q.divCeed P false U (gid p c) Flux.m, Q.divCeed P false U (gid p c) Flux.x, Q.divCeed P false U (gid p c) Flux.y⟩
              (U (gid p c))).map fun F => F.comp k) := by
  have hev : ∀ p, ∃ r : Arr Num, (∃ o, fluxEvaluationC (nc p) dt (u p) (ops' p) = some (o, r)) ∧
      ∀ c, ∀ k < 3, r.val (3 * c + k) = some ((f p c).comp k) := by
    intro p
    obtain ⟨o, r, e1, -, e3, -⟩ := C110_divergence P (hT p) (hB p) (l p) (hl p) dt (u p) (hu p) (h1 p) (h2 p)
    exact ⟨r, ⟨o, e1⟩, e3 _ (hf p)⟩
  choose r hr1 hr2 using hev
  refine ⟨r, hr1, ?_⟩
  intro fd hfd hglob p
  have hfit : (⟨dt, u p, ext p, mat p, fd p⟩ : SCall).Fits (S p) (nc p) :=
    ⟨hu p, he p, by rw [Nat.one_mul]; exact hm p, hfd p⟩
  obtain ⟨o, rhs, pv, si, i1, -, -, -, -, -, i3⟩ := C111_cells P m true (hS p) (l' p) (hl' p) hfit (h3 p) (h4 p)
  refine ⟨o, rhs, i1, ?_⟩
  intro c hc ho k hk
  rw [(i3 c hc ho k hk).1]
  have hdiv : ∀ k < 3, (fd p).val (3 * (S p).l2o.val c + k) = Q.divCeed P false U (gid p c) fun F => F.comp k := by
    intro k hk
    have h5 := hglob p c hc ho k hk
    rw [localToGlobalC_some nc gid r f k (fun p c _ => hr2 p c k hk)] at h5
    rw [← Option.some.inj h5]
    exact C73_ceed_partial hD hg hof U f (fun p => by rw [← hU p]; exact hf p) (gid p c) (linF_comp k)
  have d0 : (fd p).val (3 * (S p).l2o.val c) = Q.divCeed P false U (gid p c) Flux.m := hdiv 0 (by omega)
  have d1 : (fd p).val (3 * (S p).l2o.val c + 1) = Q.divCeed P false U (gid p c) Flux.x := hdiv 1 (by omega)
  have d2 : (fd p).val (3 * (S p).l2o.val c + 2) = Q.divCeed P false U (gid p c) Flux.y := hdiv 2 (by omega)
  unfold SCells.rhsOf
  dsimp only
  rw [d0, d1, d2]
  have hst : stateAt (u p) c = U (gid p c) := congrFun (hU p) c
  rw [← hst]
  rfl

/-! ### Examples -/

/-- three cells, the middle one of another process; the bed falls in the first and rises in the last -/
noncomputable def exSC : SCells := cellsOf (fun c => c != 1) 3 (fun c => (c : ℝ) - 1) fun _ => 0

theorem exSC_valid : exSC.Valid 3 := C111_numbering _ _ _ _

theorem exSC_owned : exSC.numOwned = 2 := by decide +kernel

/-- still water of depth 1 everywhere, with rain on the owned cells -/
noncomputable def exSCall (x : ℝ) : SCall :=
  ⟨1, ⟨9, fun j => if j % 3 = 0 then 1 else 0⟩, ⟨6, fun j => if j = 3 then x else 0⟩, ⟨2, fun _ => 0⟩, ⟨6, fun _ => 0⟩⟩

theorem exSCall_fits (x : ℝ) : (exSCall x).Fits exSC 3 := by
  refine ⟨rfl, ?_, ?_, ?_⟩ <;> rw [exSC_owned] <;> rfl

/-- after an evaluation with rain 5, one with rain 7: cell 2 (owned number 1) gains 7, not 12, and 7 is recorded -/
example (P : FlowParams) : ∃ op op' op'' rhs si, createSourceC P .semiImplicit true exSC = some op ∧
    sourceEvaluationsC exSC.numOwned op [exSCall 5] = some op' ∧ sourceEvaluationC exSC.numOwned op' (exSCall 7) = some (op'', rhs) ∧
    op''.outVec 2 = some si ∧ si.val 3 = some 7 := by
  obtain ⟨op, op', h1, h2⟩ := C111_defined P .semiImplicit true exSC_valid [exSCall 5] (by
    intro a ha; rw [List.mem_singleton.mp ha]; exact exSCall_fits 5)
  obtain ⟨op'', rhs, pv, si, h3, -, h4, -, -, -, h5⟩ := C111_cells P .semiImplicit true exSC_valid [exSCall 5] (by
    intro a ha; rw [List.mem_singleton.mp ha]; exact exSCall_fits 5) (exSCall_fits 7) h1 h2
  refine ⟨op, op', op'', rhs, si, h1, h2, h3, h4, ?_⟩
  have h6 := (h5 2 (by omega) (by decide) 0 (by omega)).2.2
  have hl : exSC.l2o.val 2 = 1 := by decide +kernel
  rw [hl] at h6
  exact h6

/-- the same without any evaluation before -/
example (P : FlowParams) : ∃ op op' r r' v v' w w', createSourceC P .xq2018 false exSC = some op ∧
    sourceEvaluationsC exSC.numOwned op [exSCall 5, exSCall 6] = some op' ∧ sourceEvaluationC exSC.numOwned op' (exSCall 7) = some r ∧
    sourceEvaluationC exSC.numOwned op (exSCall 7) = some r' ∧ r.1.outVec 1 = some v ∧ r'.1.outVec 1 = some v' ∧ r.1.outVec 2 = some w ∧
    r'.1.outVec 2 = some w' ∧ ∀ i < 3 * exSC.numOwned, r.2.val i = r'.2.val i ∧ v.val i = v'.val i ∧ w.val i = w'.val i := by
  have hfit : ∀ a ∈ [exSCall 5, exSCall 6], a.Fits exSC 3 := by
    intro a ha
    rcases List.mem_cons.mp ha with rfl | ha
    · exact exSCall_fits 5
    · rw [List.mem_singleton.mp ha]; exact exSCall_fits 6
  obtain ⟨op, op', h1, h2⟩ := C111_defined P .xq2018 false exSC_valid [exSCall 5, exSCall 6] hfit
  obtain ⟨r, r', v, v', w, w', i1, i2, i3, i4, i5, i6, i7⟩ := C111_no_history P .xq2018 false exSC_valid [exSCall 5, exSCall 6] [] hfit
    (fun a ha => absurd ha List.not_mem_nil) (exSCall_fits 7) h1 h2 rfl
  exact ⟨op, op', r, r', v, v', w, w', h1, h2, i1, i2, i3, i4, i5, i6, i7⟩

example : ∃! c, c < 3 ∧ exSC.owned.val c = true ∧ exSC.l2o.val c = 1 := C111_covered exSC_valid 1 (by rw [exSC_owned]; omega)

/-- the tables of the two processes of `exCeedOwnedFirst`: edge 0 between the cells belongs to process 0, edge 1 is a wall of cell 0 -/
noncomputable def exTwoT (p : Fin 2) : CTables where
  internal := ⟨1, fun _ => 0⟩
  cellIds := ⟨4, fun j => if j = 1 then 1 else if j = 3 then -1 else 0⟩
  elen := ⟨2, fun _ => 1⟩
  sn := ⟨2, fun _ => 0⟩
  cn := ⟨2, fun e => if p = 0 ∧ e = 1 then -1 else 1⟩
  edgeOwned := ⟨2, fun e => decide (p = 0 ∨ e = 1)⟩
  area := ⟨2, fun _ => 1 / 2⟩
  owned := ⟨2, fun c => c == 0⟩
  l2o := ⟨2, fun c => c⟩
  vertexIds := ⟨4, fun j => j⟩
  vz := ⟨4, fun _ => 0⟩
  numOwnedInternal := if p = 0 then 1 else 0

theorem exTwo_valid (p : Fin 2) : (exTwoT p).Valid 2 1 2 4 where
  base :=
    { ids := by intro e he; show 0 < 2; omega
      cellIds := rfl
      elen := rfl
      sn := rfl
      cn := rfl
      area := rfl
      owned := rfl
      l2o := rfl
      left := by intro id h; interval_cases id <;> simp [exTwoT]
      right := by intro id h; interval_cases id <;> simp [exTwoT]
      range := by intro c h; interval_cases c <;> simp [exTwoT] }
  edgeOwned := rfl
  l2o_lt := fun c h => h
  vertexIds := rfl
  vertex := fun k h => h
  vz := rfl
  two := by intro e he _; show (1 : ℤ) ≠ -1; decide
  count := by fin_cases p <;> rfl

/-- the wall -/
noncomputable def exWallC : Bnd := ⟨⟨1, fun _ => 1⟩, .reflecting, ⟨3, fun _ => 0⟩⟩

theorem exWall_valid : exWallC.Valid 2 := ⟨fun e _ => by show 1 < 2; omega, rfl⟩

theorem exTwo_mesh (p : Fin 2) : ceedMeshOf (exTwoT p) [exWallC] 2 = exCeedOwnedFirst p := by
  fin_cases p <;> rfl

/-- still water of different depths in the two cells, as each process stores it -/
noncomputable def exTwoU (p : Fin 2) : Arr ℝ := ⟨6, fun j => if j % 3 = 0 then (exSteps (exGid p (j / 3))).h else 0⟩

theorem exTwoU_state (p : Fin 2) : stateAt (exTwoU p) = fun c => exSteps (exGid p c) := by
  funext c
  unfold stateAt exTwoU
  have h1 : 3 * c / 3 = c := by omega
  simp only [show 3 * c % 3 = 0 by omega, show (3 * c + 1) % 3 = 1 by omega, show (3 * c + 2) % 3 = 2 by omega, h1]
  rfl

/-- the cells of a process: the first is owned -/
noncomputable def exTwoS : SCells := cellsOf (fun c => c == 0) 2 (fun _ => 0.1) fun _ => 0

theorem exTwoS_owned : exTwoS.numOwned = 1 := by decide +kernel

/-- both processes, after some evaluations: each gives its cell the right-hand side of the undivided problem -/
example (l : Fin 2 → List (ℝ × Arr ℝ)) (hl : ∀ p, ∀ s ∈ l p, s.2.len = 3 * 2) :
    ∃ (ops ops' : Fin 2 → List COp) (op : Fin 2 → COp) (r : Fin 2 → Arr Num),
      (∀ p, createFluxC exParams (exTwoT p) (exTwoT p).vz [exWallC] = some (ops p)) ∧
      (∀ p, fluxEvaluationsC 2 (l p) (ops p) = some (ops' p)) ∧ (∀ p, createSourceC exParams .xq2018 true exTwoS = some (op p)) ∧
      (∀ p, ∃ o, fluxEvaluationC 2 0.5 (exTwoU p) (ops' p) = some (o, r p)) ∧
      ∀ fd : Fin 2 → Arr ℝ, (∀ p, (fd p).len = 3 * exTwoS.numOwned) →
        (∀ p, ∀ c < 2, exTwoS.owned.val c = true → ∀ k < 3,
          localToGlobalC (fun _ => 2) exGid r (exGid p c) k = some ((fd p).val (3 * exTwoS.l2o.val c + k))) →
        ∀ p, ∃ o rhs, sourceEvaluationC exTwoS.numOwned (op p) ⟨0.5, exTwoU p, ⟨3, fun _ => 0.01⟩, ⟨1, fun _ => 0.03⟩, fd p⟩ = some (o, rhs) ∧
          ∀ c < 2, exTwoS.owned.val c = true → ∀ k < 3, rhs.val (3 * exTwoS.l2o.val c + k) =
            ((cellRhsCeed exParams .xq2018 true (exTwoS.dzdx.val c) (exTwoS.dzdy.val c) 0.5 0.03 ⟨0.01, 0.01, 0.01⟩
              ⟨exProblem.divCeed exParams false exSteps (exGid p c) Flux.m, exProblem.divCeed exParams false exSteps (exGid p c) Flux.x,
                exProblem.divCeed exParams false exSteps (exGid p c) Flux.y⟩ (exSteps (exGid p c))).map fun F => F.comp k) := by
  have hg : 0 < exParams.g := by norm_num [exParams]
  have ht : 0 < exParams.tinyH := by norm_num [exParams]
  have ht1 : exParams.tinyH < 1 := by norm_num [exParams]
  have ht2 : exParams.tinyH < 2 := by norm_num [exParams]
  obtain ⟨F, a, hF, -⟩ := step_rest (P := exParams) (d := 2) (d' := 1) hg ht ht1 (by norm_num)
  obtain ⟨G, b, hG, -⟩ := wall_rest (P := exParams) (d := 2) (cn := -1) hg ht ht2
  obtain ⟨H, c, hH, -⟩ := wall_rest (P := exParams) (d := 1) (cn := 1) hg ht ht1
  have h : ∀ p, ∃ f, ceedDivergence exParams false (ceedMeshOf (exTwoT p) [exWallC] 2) (stateAt (exTwoU p)) = some f := by
    intro p
    rw [exTwo_mesh, exTwoU_state]
    fin_cases p
    · simp [ceedDivergence, exCeedOwnedFirst, ceedEdge, ceedBEdge, exSteps, exGid, hF, hG]
    · simp [ceedDivergence, exCeedOwnedFirst, ceedBEdge, exSteps, exGid, hH]
  choose f hf using h
  have hB : ∀ p : Fin 2, ∀ B ∈ [exWallC], B.Valid 2 := fun _ B hB => by rw [List.mem_singleton.mp hB]; exact exWall_valid
  have hS : exTwoS.Valid 2 := C111_numbering _ _ _ _
  have hops : ∀ p, ∃ ops ops', createFluxC exParams (exTwoT p) (exTwoT p).vz [exWallC] = some ops ∧ fluxEvaluationsC 2 (l p) ops = some ops' :=
    fun p => C110_defined exParams (exTwo_valid p) (hB p) (l p) (hl p)
  choose ops ops' h1 h2 using hops
  obtain ⟨op, -, h3, -⟩ := C111_defined exParams .xq2018 true hS [] (fun a ha => absurd ha List.not_mem_nil)
  have hD : CeedDivides exProblem (fun p => ceedMeshOf (exTwoT p) [exWallC] 2) exGid (fun _ => 0) (fun b => if b.cell = 0 then 0 else 1) := by
    have e : (fun p => ceedMeshOf (exTwoT p) [exWallC] 2) = exCeedOwnedFirst := funext exTwo_mesh
    rw [e]
    exact exCeedOwnedFirst_divides
  obtain ⟨r, i1, i2⟩ := C111_processes_partial (nc := fun _ => 2) (ni := fun _ => 1) (ne := fun _ => 2) (nv := fun _ => 4) (S := fun _ => exTwoS)
    (Bs := fun _ => [exWallC]) (op := fun _ => op) (op' := fun _ => op) exParams .xq2018 hg.le exTwo_valid hB (fun _ => hS) hD
    (fun p c _ => rfl) l hl (fun _ => []) (fun _ a ha => absurd ha List.not_mem_nil) h1 h2 (fun _ => h3) (fun _ => rfl) 0.5 exSteps exTwoU
    (fun _ => ⟨3, fun _ => 0.01⟩) (fun _ => ⟨1, fun _ => 0.03⟩) (fun _ => rfl) exTwoU_state
    (fun _ => by show 3 = 3 * exTwoS.numOwned; rw [exTwoS_owned]) (fun _ => by show 1 = exTwoS.numOwned; rw [exTwoS_owned]) f hf
  exact ⟨ops, ops', fun _ => op, r, h1, h2, fun _ => h3, i1, fun fd hfd hglob p => i2 fd hfd hglob p⟩

/-- two cells on one process, each with a wall -/
noncomputable def exOne : CTables where
  internal := ⟨1, fun _ => 0⟩
  cellIds := ⟨6, fun j => if j = 1 ∨ j = 4 then 1 else if j = 3 ∨ j = 5 then -1 else 0⟩
  elen := ⟨3, fun _ => 1⟩
  sn := ⟨3, fun _ => 0⟩
  cn := ⟨3, fun e => if e = 1 then -1 else 1⟩
  edgeOwned := ⟨3, fun _ => true⟩
  area := ⟨2, fun _ => 1 / 2⟩
  owned := ⟨2, fun _ => true⟩
  l2o := ⟨2, fun c => ((numberCells (fun _ => true) 2).l2o c).toNat⟩
  vertexIds := ⟨6, fun j => j⟩
  vz := ⟨6, fun _ => 0⟩
  numOwnedInternal := 1

/-- both walls -/
noncomputable def exWallsC : Bnd := ⟨⟨2, fun e => 1 + e⟩, .reflecting, ⟨6, fun _ => 0⟩⟩

/-- its cells -/
noncomputable def exOneS : SCells := cellsOf (fun _ => true) 2 (fun _ => 0.1) fun _ => 0

theorem exOneS_valid : exOneS.Valid 2 := C111_numbering _ _ _ _

theorem exOne_valid : exOne.Valid 2 2 3 6 where
  base :=
    { ids := by intro e he; show 0 < 3; omega
      cellIds := rfl
      elen := rfl
      sn := rfl
      cn := rfl
      area := rfl
      owned := rfl
      l2o := rfl
      left := by intro id h; interval_cases id <;> simp [exOne]
      right := by intro id h; interval_cases id <;> simp [exOne]
      range := by
        intro c h _
        have := (allOwned_l2o exOneS_valid fun _ _ => rfl).2 c h
        show exOneS.l2o.val c < 2
        omega }
  edgeOwned := rfl
  l2o_lt := by
    intro c h
    have := (allOwned_l2o exOneS_valid fun _ _ => rfl).2 c h
    show exOneS.l2o.val c < 2
    omega
  vertexIds := rfl
  vertex := fun k h => h
  vz := rfl
  two := by intro e he _; show (if (1 : ℕ) = 1 ∨ (1 : ℕ) = 4 then (1 : ℤ) else if (1 : ℕ) = 3 ∨ (1 : ℕ) = 5 then -1 else 0) ≠ -1; decide
  count := rfl

theorem exWalls_valid : exWallsC.Valid 3 := ⟨fun e he => by show 1 + e < 3; have : e < 2 := he; omega, rfl⟩

theorem exOne_edges : EdgesValid (ceedMeshOf exOne [exWallsC] 2) := by
  refine ⟨?_, ?_, ?_, ?_⟩
  · intro e he
    have h : e ∈ [(⟨0, some 1, 1, 0, 1⟩ : IEdge)] := he
    rw [List.mem_singleton.mp h]
    show 0 < 2
    omega
  · intro e he r hr
    have h : e ∈ [(⟨0, some 1, 1, 0, 1⟩ : IEdge)] := he
    rw [List.mem_singleton.mp h] at hr
    obtain rfl : 1 = r := Option.some.inj hr
    show 1 < 2
    omega
  · intro e he
    have h : e ∈ [(⟨0, 1, 0, -1, .reflecting⟩ : BEdge), ⟨1, 1, 0, 1, .reflecting⟩] := he
    rcases List.mem_cons.mp h with rfl | h
    · show 0 < 2; omega
    · rw [List.mem_singleton.mp h]; show 1 < 2; omega
  · intro c _
    show (1 / 2 : ℝ) ≠ 0
    norm_num

/-- water of depth 2 that flows, in both cells: CEED as assembled gives the right-hand side of the PETSc backend, after any evaluations -/
example (l : List (ℝ × Arr ℝ)) (hl : ∀ s ∈ l, s.2.len = 3 * 2) :
    ∃ ops ops' op ops'' op'' r f, createFluxC exParams exOne exOne.vz [exWallsC] = some ops ∧ fluxEvaluationsC 2 l ops = some ops' ∧
      createSourceC exParams .xq2018 true exOneS = some op ∧
      applyCeedC 2 0.5 ⟨6, fun j => if j % 3 = 0 then 2 else 1⟩ ⟨6, fun _ => 0.01⟩ ⟨2, fun _ => 0.03⟩ ops' op = some (ops'', op'', r) ∧
      rhs exParams .xq2018 false { ceedMeshOf exOne [exWallsC] 2 with dzdx := exOneS.dzdx.val, dzdy := exOneS.dzdy.val } 0.5
        (fun _ => ⟨0.01, 0.01, 0.01⟩) (fun _ => 0.03) (stateAt ⟨6, fun j => if j % 3 = 0 then 2 else 1⟩) = some f ∧
      ∀ c < 2, ∀ k < 3, r.val (3 * c + k) = some ((f c).comp k) := by
  have hB : ∀ B ∈ [exWallsC], B.Valid 3 := fun B hB => by rw [List.mem_singleton.mp hB]; exact exWalls_valid
  have hst : ∀ c, (stateAt ⟨6, fun j => if j % 3 = 0 then 2 else 1⟩ c).h = 2 := by
    intro c
    exact if_pos (by omega)
  have hbd : ∀ e ∈ (ceedMeshOf exOne [exWallsC] 2).boundary, e.bc = .reflecting := by
    intro e he
    have h : e ∈ [(⟨0, 1, 0, -1, .reflecting⟩ : BEdge), ⟨1, 1, 0, 1, .reflecting⟩] := he
    rcases List.mem_cons.mp h with rfl | h
    · rfl
    · rw [List.mem_singleton.mp h]
  obtain ⟨ops, ops', h1, h2⟩ := C110_defined exParams exOne_valid hB l hl
  obtain ⟨op, -, h3, -⟩ := C111_defined exParams .xq2018 true exOneS_valid [] (fun a ha => absurd ha List.not_mem_nil)
  obtain ⟨ops'', op'', r, f, i1, i2, i3⟩ := C111_backends_partial exParams .xq2018 (by norm_num [exParams]) (by norm_num [exParams])
    (by norm_num [exParams]) (Or.inl rfl) exOne_valid hB exOneS_valid (fun _ => rfl) rfl rfl l hl [] (fun a ha => absurd ha List.not_mem_nil)
    h1 h2 h3 rfl (dt := 0.5) (by norm_num) ⟨6, fun j => if j % 3 = 0 then 2 else 1⟩ ⟨6, fun _ => 0.01⟩ ⟨2, fun _ => 0.03⟩ rfl rfl rfl
    (fun c => by rw [hst]; norm_num) (fun c _ => by rw [hst]; norm_num [exParams]) exOne_edges
    (fun e he => by unfold RegularEdge; rw [hbd e he]; trivial)
    (fun e he qb h => by rw [hbd e he] at h; cases h)
  exact ⟨ops, ops', op, ops'', op'', r, f, h1, h2, h3, i1, i2, i3⟩

end RDy
