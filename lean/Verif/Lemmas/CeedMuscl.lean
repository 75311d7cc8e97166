import Verif.Model.CeedMuscl
import Verif.Lemmas.CeedOpRun
import Verif.Lemmas.PackedRun
import Mathlib.Tactic

/-! Lemmas about the assembled second-order flux operators of the CEED backend. -/

namespace RDy

variable {T : CTables} {nc n ne nv : ℕ}

/-! ### Packed order -/

theorem pos_eq_length (a : MCProc) (k : ℕ) : a.G.pos k = (a.T.owned' a.T.internal k).length := rfl

/-- the place in packed order of the owned edge number `j` is `j` -/
theorem pos_getD (a : MCProc) : ∀ (k j : ℕ), j < (a.T.owned' a.T.internal k).length →
    a.G.pos ((a.T.owned' a.T.internal k).getD j 0) = j := by
  intro k
  induction k with
  | zero => intro j hj; exact absurd hj (Nat.not_lt_zero _)
  | succ k ih =>
    intro j hj
    rw [owned'_succ] at hj ⊢
    by_cases h : a.T.own a.T.internal k = true
    · rw [if_pos h] at hj ⊢
      rw [List.length_append] at hj
      rw [getD_concat hj]
      by_cases hjl : j < (a.T.owned' a.T.internal k).length
      · rw [if_pos hjl]; exact ih j hjl
      · have : j < (a.T.owned' a.T.internal k).length + 1 := hj
        rw [if_neg hjl, pos_eq_length]
        omega
    · rw [if_neg h, List.append_nil] at hj ⊢
      exact ih j hj

/-! ### Creation -/

/-- Two arrays of `N` entries, of which the first `m` are set. -/
def OffsetPair.Set (o : OffsetPair) (N m : ℕ) (φ ψ : ℕ → ℕ) : Prop :=
  (o.1.len = N ∧ o.2.len = N) ∧ ∀ j < m, o.1.val j = some (φ j) ∧ o.2.val j = some (ψ j)

theorem faceOffsets_spec (N : ℕ) : ∃ o, loopM faceOffsetStep N (OffsetPair.malloc N) = some o ∧
    o.Set N N (fun j => 6 * j) (fun j => 6 * j + 3) := by
  refine loopM_inv (step := faceOffsetStep) (n := N) (s := OffsetPair.malloc N)
    (fun k o => o.Set N k (fun j => 6 * j) (fun j => 6 * j + 3)) ⟨⟨rfl, rfl⟩, fun _ h => absurd h (Nat.not_lt_zero _)⟩ ?_
  rintro k hk o ⟨⟨h1, h2⟩, h3⟩
  unfold faceOffsetStep
  rw [put_at _ hk h1]
  show ∃ s', Option.map _ (o.2.put k _) = some s' ∧ _
  rw [put_at _ hk h2]
  refine ⟨_, rfl, ⟨h1, h2⟩, fun j hj => ?_⟩
  show Function.update o.1.val k (some (k * 2 * 3)) j = some (6 * j) ∧ Function.update o.2.val k (some (k * 2 * 3 + 3)) j = some (6 * j + 3)
  by_cases hjk : j = k
  · subst hjk
    rw [Function.update_self, Function.update_self]
    exact ⟨congrArg some (by omega), congrArg some (by omega)⟩
  · rw [Function.update_of_ne hjk, Function.update_of_ne hjk]
    exact h3 j (by omega)

/-- The entries of the first edges `l` of a list of edges are set. -/
def OffsetPair.SetBy (o : OffsetPair) (N : ℕ) (l : List ℕ) (φ ψ : ℕ → ℕ) : Prop :=
  (o.1.len = N ∧ o.2.len = N) ∧ (∀ j < l.length, o.1.val j = some (φ (l.getD j 0))) ∧ ∀ j < l.length, o.2.val j = some (ψ (l.getD j 0))

theorem musclCellBody_spec (hT : T.Valid nc n ne nv) {o : OffsetPair} {l : List ℕ} {e N : ℕ} (hi : l.length < N)
    (ho : o.SetBy N l (fun e => 3 * T.l2o.val (T.leftOf (T.internal.val e))) (fun e => 3 * T.l2o.val (T.R (T.internal.val e))))
    (hid : T.internal.val e < ne) (h2 : T.cellIds.val (2 * T.internal.val e + 1) ≠ -1) :
    ∃ o', musclCellBody T o l.length e (T.internal.val e) = some o' ∧
      o'.SetBy N (l ++ [e]) (fun e => 3 * T.l2o.val (T.leftOf (T.internal.val e))) (fun e => 3 * T.l2o.val (T.R (T.internal.val e))) := by
  have hb := hT.base
  obtain ⟨⟨l1, l2⟩, s1, s2⟩ := ho
  unfold musclCellBody
  rw [Arr.get_some (show 2 * T.internal.val e < T.cellIds.len by rw [hb.cellIds]; omega)]
  show ∃ o', (T.cellIds.get (2 * T.internal.val e + 1)).bind _ = some o' ∧ _
  rw [Arr.get_some (show 2 * T.internal.val e + 1 < T.cellIds.len by rw [hb.cellIds]; omega)]
  show ∃ o', (asIndex (T.cellIds.val (2 * T.internal.val e))).bind _ = some o' ∧ _
  rw [asIndex_some (hb.left _ hid).1]
  show ∃ o', (asIndex (T.cellIds.val (2 * T.internal.val e + 1))).bind _ = some o' ∧ _
  rw [asIndex_some (hT.right_lt hid h2).1]
  show ∃ o', (T.l2o.get (T.leftOf (T.internal.val e))).bind _ = some o' ∧ _
  rw [Arr.get_some (show T.leftOf (T.internal.val e) < T.l2o.len by rw [hb.l2o]; exact hT.left_lt hid)]
  show ∃ o', (o.1.put l.length _).bind _ = some o' ∧ _
  rw [put_at _ hi l1]
  show ∃ o', (T.l2o.get (T.R (T.internal.val e))).bind _ = some o' ∧ _
  rw [Arr.get_some (show T.R (T.internal.val e) < T.l2o.len by rw [hb.l2o]; exact (hT.right_lt hid h2).2)]
  show ∃ o', (o.2.put l.length _).map _ = some o' ∧ _
  rw [put_at _ hi l2]
  refine ⟨_, rfl, ⟨l1, l2⟩, ?_, ?_⟩
  · rw [Nat.mul_comm]
    exact set_concat (fun e => some (3 * T.l2o.val (T.leftOf (T.internal.val e)))) s1
  · rw [Nat.mul_comm (T.l2o.val (T.R (T.internal.val e)))]
    exact set_concat (fun e => some (3 * T.l2o.val (T.R (T.internal.val e)))) s2

theorem musclEtaBody_spec (hT : T.Valid nc n ne nv) {o : OffsetPair} {l : List ℕ} {e N : ℕ} (hi : l.length < N)
    (ho : o.SetBy N l (fun e => T.vertexIds.val (2 * T.internal.val e)) (fun e => T.vertexIds.val (2 * T.internal.val e + 1)))
    (hid : T.internal.val e < ne) :
    ∃ o', musclEtaBody T o l.length e (T.internal.val e) = some o' ∧
      o'.SetBy N (l ++ [e]) (fun e => T.vertexIds.val (2 * T.internal.val e)) (fun e => T.vertexIds.val (2 * T.internal.val e + 1)) := by
  obtain ⟨⟨l1, l2⟩, s1, s2⟩ := ho
  unfold musclEtaBody
  rw [Arr.get_some (show 2 * T.internal.val e < T.vertexIds.len by rw [hT.vertexIds]; omega)]
  show ∃ o', (T.vertexIds.get (2 * T.internal.val e + 1)).bind _ = some o' ∧ _
  rw [Arr.get_some (show 2 * T.internal.val e + 1 < T.vertexIds.len by rw [hT.vertexIds]; omega)]
  show ∃ o', (o.1.put l.length _).bind _ = some o' ∧ _
  rw [put_at _ hi l1]
  show ∃ o', (o.2.put l.length _).map _ = some o' ∧ _
  rw [put_at _ hi l2]
  refine ⟨_, rfl, ⟨l1, l2⟩, ?_, ?_⟩
  · dsimp only
    rw [Nat.mul_one]
    exact set_concat (fun e => some (T.vertexIds.val (2 * T.internal.val e))) s1
  · dsimp only
    rw [Nat.mul_one]
    exact set_concat (fun e => some (T.vertexIds.val (2 * T.internal.val e + 1))) s2

/-- The operator of the internal edges with the vector `q` of reconstructed states and `cn` of Courant numbers. -/
noncomputable def interiorMC (P : FlowParams) (N : ℕ) (g : Arr ℝ) (f c v : OffsetPair) (eta q : Arr ℝ) (cn : Arr Num) : COp where
  elems := N
  ins := [⟨.strided 6, 6, some g⟩, ⟨.offsets f.1, 3, some q⟩, ⟨.offsets f.2, 3, some q⟩, ⟨.offsets v.1, 1, some eta⟩,
    ⟨.offsets v.2, 1, some eta⟩]
  outs := [⟨.offsets c.1, 3, none⟩, ⟨.offsets c.2, 3, none⟩, ⟨.strided 2, 2, some cn⟩]
  kernel := musclKernel P

/-- What the arrays of the operator of the internal edges hold. -/
structure InteriorMReady (T : CTables) (g : Arr ℝ) (f c v : OffsetPair) : Prop where
  len : g.len = 6 * T.numOwnedInternal
  geom : ∀ j < T.numOwnedInternal, ∀ k < 6,
    g.val (6 * j + k) = T.geom (T.internal.val ((T.owned' T.internal T.internal.len).getD j 0)) k
  face : f.Set T.numOwnedInternal T.numOwnedInternal (fun j => 6 * j) (fun j => 6 * j + 3)
  cell : c.SetBy T.numOwnedInternal (T.owned' T.internal T.internal.len)
    (fun e => 3 * T.l2o.val (T.leftOf (T.internal.val e))) (fun e => 3 * T.l2o.val (T.R (T.internal.val e)))
  eta : v.SetBy T.numOwnedInternal (T.owned' T.internal T.internal.len)
    (fun e => T.vertexIds.val (2 * T.internal.val e)) (fun e => T.vertexIds.val (2 * T.internal.val e + 1))

theorem createInteriorMC_spec (P : FlowParams) (hT : T.Valid nc n ne nv) (eta : Arr ℝ) :
    ∃ g f c v, InteriorMReady T g f c v ∧ createInteriorMC P T eta = some (interiorMC P T.numOwnedInternal g f c v eta
      (Arr.calloc (T.numOwnedInternal * 2 * 3) 0) (Arr.calloc (2 * T.numOwnedInternal) (some 0))) := by
  obtain ⟨g, hg1, hg2, hg3⟩ := ownedLoop_inv (T := T) (ids := T.internal) hT.base.ids hT.edgeOwned (body := geomBody T)
    (fun l g => g.len = 6 * T.numOwnedInternal ∧ ∀ j < l.length, ∀ k < 6, g.val (6 * j + k) = T.geom (T.internal.val (l.getD j 0)) k)
    (s := Arr.calloc (6 * T.numOwnedInternal) 0) ⟨rfl, fun _ h => absurd h (Nat.not_lt_zero _)⟩ (by
      rintro l e g he hw hl ⟨h1, h2⟩
      rw [← hT.count] at hl
      obtain ⟨g', e1, e2, e3⟩ := geomBody_spec hT (e := e) hl h1 (hT.base.ids e he) (hT.two e he hw)
      exact ⟨g', e1, e2.trans h1, rows_concat (fun e k => T.geom (T.internal.val e) k) h2 e3⟩)
  obtain ⟨f, hf1, hf2⟩ := faceOffsets_spec T.numOwnedInternal
  obtain ⟨c, hc1, hc2⟩ := ownedLoop_inv (T := T) (ids := T.internal) hT.base.ids hT.edgeOwned (body := musclCellBody T)
    (fun l o => o.SetBy T.numOwnedInternal l (fun e => 3 * T.l2o.val (T.leftOf (T.internal.val e)))
      (fun e => 3 * T.l2o.val (T.R (T.internal.val e)))) (s := OffsetPair.malloc T.numOwnedInternal)
    ⟨⟨rfl, rfl⟩, fun _ h => absurd h (Nat.not_lt_zero _), fun _ h => absurd h (Nat.not_lt_zero _)⟩ (by
      rintro l e o he hw hl h1
      rw [← hT.count] at hl
      exact musclCellBody_spec hT hl h1 (hT.base.ids e he) (hT.two e he hw))
  obtain ⟨v, hv1, hv2⟩ := ownedLoop_inv (T := T) (ids := T.internal) hT.base.ids hT.edgeOwned (body := musclEtaBody T)
    (fun l o => o.SetBy T.numOwnedInternal l (fun e => T.vertexIds.val (2 * T.internal.val e))
      (fun e => T.vertexIds.val (2 * T.internal.val e + 1))) (s := OffsetPair.malloc T.numOwnedInternal)
    ⟨⟨rfl, rfl⟩, fun _ h => absurd h (Nat.not_lt_zero _), fun _ h => absurd h (Nat.not_lt_zero _)⟩ (by
      rintro l e o he hw hl h1
      rw [← hT.count] at hl
      exact musclEtaBody_spec hT hl h1 (hT.base.ids e he))
  refine ⟨g, f, c, v, ⟨hg2, ?_, hf2, hc2, hv2⟩, ?_⟩
  · intro j hj; exact hg3 j (by rw [← hT.count]; exact hj)
  · unfold createInteriorMC
    rw [hg1]
    show Option.bind (loopM faceOffsetStep _ _) _ = _
    rw [hf1]
    show Option.bind (ownedLoopC T T.internal (musclCellBody T) _) _ = _
    rw [hc1]
    show Option.map _ (ownedLoopC T T.internal (musclEtaBody T) _) = _
    rw [hv1]
    rfl

/-! ### Evaluation of the internal edges -/

/-- the flux of internal edge `e` between the states `sL e` and `sR e` -/
noncomputable def musclFC (P : FlowParams) (T : CTables) (eta : Arr ℝ) (sL sR : ℕ → Cons) (e : ℕ) : Option (Flux × ℝ) :=
  edgeFluxCeed P.g P.tinyH P.hAnuga (sL e) (sR e) (T.sn.val (T.internal.val e)) (T.cn.val (T.internal.val e))
    (computeDhv (T.vz.val (T.vertexIds.val (2 * T.internal.val e))) (T.vz.val (T.vertexIds.val (2 * T.internal.val e + 1)))
      (eta.val (T.vertexIds.val (2 * T.internal.val e))) (eta.val (T.vertexIds.val (2 * T.internal.val e + 1))))

/-- what the Q-function gives for internal edge `e` -/
noncomputable def musclOut (P : FlowParams) (T : CTables) (eta : Arr ℝ) (sL sR : ℕ → Cons) (dt : ℝ) (e : ℕ) : List (ℕ → Num) :=
  [fun k => Num.scale ((musclFC P T eta sL sR e).map fun F => F.1.comp k)
      (-T.elen.val (T.internal.val e) / T.area.val (T.leftOf (T.internal.val e))),
   fun k => Num.scale ((musclFC P T eta sL sR e).map fun F => F.1.comp k)
      (T.elen.val (T.internal.val e) / T.area.val (T.R (T.internal.val e))),
   fun k => (musclFC P T eta sL sR e).map fun F =>
      if k = 0 then -F.2 * (-T.elen.val (T.internal.val e) / T.area.val (T.leftOf (T.internal.val e))) * dt
      else F.2 * (T.elen.val (T.internal.val e) / T.area.val (T.R (T.internal.val e))) * dt]

/-- The vector of reconstructed states holds, after cutting off, the states `sL` and `sR` of the owned edges in packed order. -/
def FacesHold (T : CTables) (q : Arr ℝ) (sL sR : ℕ → Cons) : Prop :=
  q.len = 6 * T.numOwnedInternal ∧ ∀ j < T.numOwnedInternal,
    (⟨max 0 (q.val (6 * j + 0)), q.val (6 * j + 1), q.val (6 * j + 2)⟩ : Cons) = sL ((T.owned' T.internal T.internal.len).getD j 0) ∧
    (⟨max 0 (q.val (6 * j + 3 + 0)), q.val (6 * j + 3 + 1), q.val (6 * j + 3 + 2)⟩ : Cons) =
      sR ((T.owned' T.internal T.internal.len).getD j 0)

theorem interiorM_point (P : FlowParams) (hT : T.Valid nc n ne nv) {g : Arr ℝ} {f c v : OffsetPair} (hR : InteriorMReady T g f c v)
    {eta q : Arr ℝ} (he : eta.len = nv) {sL sR : ℕ → Cons} (hq : FacesHold T q sL sR) (cn : Arr Num) (dt : ℝ) (u : Arr ℝ) {j : ℕ}
    (hj : j < T.numOwnedInternal) :
    (interiorMC P T.numOwnedInternal g f c v eta q cn).point dt u j =
      some (musclOut P T eta sL sR dt ((T.owned' T.internal T.internal.len).getD j 0)) := by
  obtain ⟨hid, h2⟩ := interior_id hT hj
  have hjl : j < (T.owned' T.internal T.internal.len).length := by rw [← hT.count]; exact hj
  have hv1 := hT.vertex (2 * T.internal.val ((T.owned' T.internal T.internal.len).getD j 0)) (by omega)
  have hv2 := hT.vertex (2 * T.internal.val ((T.owned' T.internal T.internal.len).getD j 0) + 1) (by omega)
  have hg := hR.geom j hj
  obtain ⟨⟨f1, f2⟩, f3⟩ := hR.face
  obtain ⟨⟨v1, v2⟩, v3, v4⟩ := hR.eta
  obtain ⟨q1, q2⟩ := hq
  obtain ⟨q3, q4⟩ := q2 j hj
  have f4 : f.1.val j = some (6 * j) := (f3 j hj).1
  have f5 : f.2.val j = some (6 * j + 3) := (f3 j hj).2
  have v5 : v.1.val j = some (T.vertexIds.val (2 * T.internal.val ((T.owned' T.internal T.internal.len).getD j 0))) := v3 j hjl
  have v6 : v.2.val j = some (T.vertexIds.val (2 * T.internal.val ((T.owned' T.internal T.internal.len).getD j 0) + 1)) := v4 j hjl
  unfold COp.point interiorMC gatherAll
  dsimp only
  rw [gather_strided hj hR.len]
  unfold gatherAll
  rw [gather_offsets (v := some q) hj f1 f4 (show _ ≤ q.len by omega)]
  unfold gatherAll
  rw [gather_offsets (v := some q) hj f2 f5 (show _ ≤ q.len by omega)]
  unfold gatherAll
  rw [gather_offsets (v := some eta) hj v1 v5 (show _ ≤ eta.len by omega)]
  unfold gatherAll
  rw [gather_offsets (v := some eta) hj v2 v6 (show _ ≤ eta.len by omega)]
  unfold gatherAll
  generalize (T.owned' T.internal T.internal.len).getD j 0 = e at *
  have g0 : g.val (6 * j + 0) = T.sn.val (T.internal.val e) := hg 0 (by omega)
  have g1 : g.val (6 * j + 1) = T.cn.val (T.internal.val e) := hg 1 (by omega)
  have g2 : g.val (6 * j + 2) = -T.elen.val (T.internal.val e) / T.area.val (T.leftOf (T.internal.val e)) := hg 2 (by omega)
  have g3 : g.val (6 * j + 3) = T.elen.val (T.internal.val e) / T.area.val (T.R (T.internal.val e)) := hg 3 (by omega)
  have g4 : g.val (6 * j + 4) = T.vz.val (T.vertexIds.val (2 * T.internal.val e)) := hg 4 (by omega)
  have g5 : g.val (6 * j + 5) = T.vz.val (T.vertexIds.val (2 * T.internal.val e + 1)) := hg 5 (by omega)
  show musclKernel P dt [fun k => g.val (6 * j + k), fun k => q.val (6 * j + k), fun k => q.val (6 * j + 3 + k),
    fun k => eta.val (T.vertexIds.val (2 * T.internal.val e) + k), fun k => eta.val (T.vertexIds.val (2 * T.internal.val e + 1) + k)] = _
  unfold musclKernel musclFlux
  dsimp only
  rw [q3, q4]
  simp only [g0, g1, g2, g3, g4, g5]
  rfl

/-- what an internal edge adds to component `k` of place `c` -/
noncomputable def musclAdd (P : FlowParams) (T : CTables) (eta : Arr ℝ) (sL sR : ℕ → Cons) (c k : ℕ) (s : Num) (e : ℕ) : Num :=
  (s.add (recv true (T.l2o.val (T.leftOf (T.internal.val e))) c (Num.scale ((musclFC P T eta sL sR e).map fun F => F.1.comp k)
      (-T.elen.val (T.internal.val e) / T.area.val (T.leftOf (T.internal.val e)))))).add
    (recv true (T.l2o.val (T.R (T.internal.val e))) c (Num.scale ((musclFC P T eta sL sR e).map fun F => F.1.comp k)
      (T.elen.val (T.internal.val e) / T.area.val (T.R (T.internal.val e)))))

/-- the Courant numbers of internal edge `e` (`k = 0`: for the left cell) with the time step `dt` -/
noncomputable def musclCourant (P : FlowParams) (T : CTables) (eta : Arr ℝ) (sL sR : ℕ → Cons) (dt : ℝ) (e k : ℕ) : Num :=
  (musclFC P T eta sL sR e).map fun F =>
    if k = 0 then -F.2 * (-T.elen.val (T.internal.val e) / T.area.val (T.leftOf (T.internal.val e))) * dt
    else F.2 * (T.elen.val (T.internal.val e) / T.area.val (T.R (T.internal.val e))) * dt

theorem interiorM_apply (P : FlowParams) (hT : T.Valid nc n ne nv) {g : Arr ℝ} {f c v : OffsetPair} (hR : InteriorMReady T g f c v)
    {eta q : Arr ℝ} (he : eta.len = nv) {sL sR : ℕ → Cons} (hq : FacesHold T q sL sR) {cn rhs : Arr Num}
    (hc : cn.len = 2 * T.numOwnedInternal) (hr : rhs.len = 3 * nc) (dt : ℝ) (u : Arr ℝ) :
    ∃ cn' rhs', (interiorMC P T.numOwnedInternal g f c v eta q cn).applyAdd dt u rhs =
        some (interiorMC P T.numOwnedInternal g f c v eta q cn', rhs') ∧ cn'.len = cn.len ∧ rhs'.len = rhs.len ∧
      (∀ o k, k < 3 → rhs'.val (3 * o + k) =
        (T.owned' T.internal T.internal.len).foldl (musclAdd P T eta sL sR o k) (rhs.val (3 * o + k))) ∧
      ∀ j < T.numOwnedInternal, ∀ k < 2, cn'.val (2 * j + k) = (cn.val (2 * j + k)).add
        (musclCourant P T eta sL sR dt ((T.owned' T.internal T.internal.len).getD j 0) k) := by
  obtain ⟨E, hE1, hE2⟩ := points_some (op := interiorMC P T.numOwnedInternal g f c v eta q cn) (dt := dt) (u := u)
    (fun j hj => interiorM_point P hT hR he hq cn dt u hj)
  replace hE2 : ∀ j < T.numOwnedInternal, E j = musclOut P T eta sL sR dt ((T.owned' T.internal T.internal.len).getD j 0) := hE2
  obtain ⟨⟨c1, c2⟩, c3, c4⟩ := hR.cell
  have hcnt : ∀ j < T.numOwnedInternal, j < (T.owned' T.internal T.internal.len).length := fun j hj => by rw [← hT.count]; exact hj
  obtain ⟨r1, a1, a2, a3⟩ := addAll_spec (o := ⟨.offsets c.1, 3, none⟩) (elems := T.numOwnedInternal) (f := 0) (n := nc) (E := E)
    (fun j => T.l2o.val (T.leftOf (T.internal.val ((T.owned' T.internal T.internal.len).getD j 0))))
    (fun j k => Num.scale ((musclFC P T eta sL sR ((T.owned' T.internal T.internal.len).getD j 0)).map fun F => F.1.comp k)
      (-T.elen.val (T.internal.val ((T.owned' T.internal T.internal.len).getD j 0)) /
        T.area.val (T.leftOf (T.internal.val ((T.owned' T.internal T.internal.len).getD j 0)))))
    (a := rhs) (fun j hj => base_offsets hj c1 (c3 j (hcnt j hj)))
    (fun j hj => hT.l2o_lt _ (hT.left_lt (interior_id hT hj).1)) (fun j hj k => by rw [hE2 j hj]; rfl) hr
  obtain ⟨r2, b1, b2, b3⟩ := addAll_spec (o := ⟨.offsets c.2, 3, none⟩) (elems := T.numOwnedInternal) (f := 1) (n := nc) (E := E)
    (fun j => T.l2o.val (T.R (T.internal.val ((T.owned' T.internal T.internal.len).getD j 0))))
    (fun j k => Num.scale ((musclFC P T eta sL sR ((T.owned' T.internal T.internal.len).getD j 0)).map fun F => F.1.comp k)
      (T.elen.val (T.internal.val ((T.owned' T.internal T.internal.len).getD j 0)) /
        T.area.val (T.R (T.internal.val ((T.owned' T.internal T.internal.len).getD j 0)))))
    (a := r1) (fun j hj => base_offsets hj c2 (c4 j (hcnt j hj)))
    (fun j hj => hT.l2o_lt _ (hT.right_lt (interior_id hT hj).1 (interior_id hT hj).2).2) (fun j hj k => by rw [hE2 j hj]; rfl) (a2.trans hr)
  obtain ⟨n1, d1, d2, d3⟩ := addAll_spec (o := ⟨.strided 2, 2, some cn⟩) (elems := T.numOwnedInternal) (f := 2)
    (n := T.numOwnedInternal) (E := E) (fun j => j)
    (fun j k => musclCourant P T eta sL sR dt ((T.owned' T.internal T.internal.len).getD j 0) k)
    (a := cn) (fun j hj => rfl) (fun j hj => hj) (fun j hj k => by rw [hE2 j hj]; rfl) hc
  refine ⟨n1, r2, ?_, d2, b2.trans a2, ?_, ?_⟩
  · unfold COp.applyAdd
    rw [hE1]
    show Option.map _ (addOutputs T.numOwnedInternal E 0 _ rhs) = _
    unfold interiorMC addOutputs
    dsimp only
    rw [a1]
    unfold addOutputs
    dsimp only [Option.bind]
    rw [b1]
    unfold addOutputs
    dsimp only [Option.bind]
    rw [d1]
    rfl
  · intro o k hk
    have h1 := b3 o k hk
    have h2 := a3 o k hk
    dsimp only at h1 h2
    rw [h1, h2]
    refine (foldl_two _ _ _ _).trans ?_
    rw [hT.count]
    exact foldl_range_getD (musclAdd P T eta sL sR o k) _ _
  · intro j hj k hk
    have h1 := d3 j k hk
    dsimp only at h1
    rw [h1]
    refine (foldl_own _ _ _ _).trans ?_
    rw [if_pos hj]

/-! ### A whole evaluation -/

/-- What the tables of a process have to satisfy. -/
structure MCProc.Valid (a : MCProc) (ne nv : ℕ) : Prop where
  T : a.T.Valid a.nc a.n ne nv
  G : a.G.Valid a.nc a.n ne nv
  Bs : ∀ B ∈ a.Bs, B.Valid ne

/-- The memory of a process is ready for an evaluation; `cn` is the vector of the Courant numbers of internal edges. -/
structure MusclC.Ready (M : MusclC) (P : FlowParams) (a : MCProc) (eta : Arr ℝ) (cn : Arr Num) : Prop where
  coeffLen : M.coeffs.len = a.T.internal.len * 4
  coeffs : ∀ ie < a.T.internal.len, ∀ k < 4, M.coeffs.val (ie * 4 + k) = coeffEntry a.G ie k
  grad : ∀ k < 3, (M.grad k).len = a.nc * 2
  qFace : M.qFace.len = 6 * a.T.numOwnedInternal
  dtime : M.dtime = 0
  cnLen : cn.len = 2 * a.T.numOwnedInternal
  interior : ∃ g f c v q, InteriorMReady a.T g f c v ∧ M.interior = interiorMC P a.T.numOwnedInternal g f c v eta q cn
  flux : ∃ Φ, List.Forall₂ (BOpReady P a.T eta Φ) a.Bs M.flux

theorem createMusclC_spec (P : FlowParams) {a : MCProc} (ha : a.Valid ne nv) (eta : Arr ℝ) :
    ∃ M, createMusclC P a eta = some M ∧ M.Ready P a eta (Arr.calloc (2 * a.T.numOwnedInternal) (some 0)) := by
  obtain ⟨g, f, c, v, h1, h2⟩ := createInteriorMC_spec P ha.T eta
  obtain ⟨bops, h3, h4⟩ := createBoundariesC_spec P ha.T eta a.Bs ha.Bs
  obtain ⟨co, a1, a2, a3⟩ := coeffsB_spec ha.G (co := Arr.calloc (a.T.internal.len * 4) 0) rfl
  refine ⟨⟨co, fun _ => Arr.calloc (a.nc * 2) 0, Arr.calloc (a.T.numOwnedInternal * 2 * 3) 0, _, 0, bops⟩, ?_,
    ⟨a2, a3, fun _ _ => rfl, ?_, rfl, rfl, ⟨g, f, c, v, Arr.calloc (a.T.numOwnedInternal * 2 * 3) 0, h1, rfl⟩, ⟨_, h4⟩⟩⟩
  · unfold createMusclC
    rw [h2]
    show Option.bind (createBoundariesC P a.T eta a.Bs) _ = _
    rw [h3]
    show Option.map _ (coeffsB a.G a.nc _) = _
    rw [a1]
    rfl
  · show a.T.numOwnedInternal * 2 * 3 = _
    omega

theorem musclFluxesC_spec (P : FlowParams) (l : Limiter) {a : MCProc} (ha : a.Valid ne nv) {eta : Arr ℝ} (he : eta.len = nv) {M : MusclC}
    {cn : Arr Num} (hM : M.Ready P a eta cn) {g : ℕ → Arr ℝ} {X Y : ℕ → ℕ → ℝ} (hg : ∀ k < 3, GradIs a.nc (g k) (X k) (Y k)) (dt : ℝ)
    {u : Arr ℝ} (hu : u.len = 3 * a.nc) :
    ∃ r, musclFluxesC l a M g dt u = some r ∧ (∃ cn', r.1.Ready P a eta cn' ∧ ∀ j < a.T.numOwnedInternal, ∀ k < 2,
        cn'.val (2 * j + k) = (cn.val (2 * j + k)).add (musclCourant P a.T eta (faceL l a.G u X Y) (faceR l a.G u X Y) 0
          ((a.T.owned' a.T.internal a.T.internal.len).getD j 0) k)) ∧
      r.2.len = 3 * a.nc ∧ ∀ o k, k < 3 → r.2.val (3 * o + k) = boundariesAdd P a.T eta u o k
        ((a.T.owned' a.T.internal a.T.internal.len).foldl (musclAdd P a.T eta (faceL l a.G u X Y) (faceR l a.G u X Y) o k) (some 0)) a.Bs := by
  have hN : a.G.pos a.G.T.internal.len = a.T.numOwnedInternal := ha.T.count.symm
  obtain ⟨q, q1, q2, q3⟩ := reconstructB_spec ha.G l hu hg (f := M.qFace) (by rw [hM.qFace, hN]; omega)
  obtain ⟨g0, f, c, v, q0, hR, hI⟩ := hM.interior
  obtain ⟨Φ, hΦ⟩ := hM.flux
  have hF : FacesHold a.T q (faceL l a.G u X Y) (faceR l a.G u X Y) := by
    refine ⟨q2.trans hM.qFace, fun j hj => ?_⟩
    have hjl : j < (a.T.owned' a.T.internal a.T.internal.len).length := by rw [← ha.T.count]; exact hj
    obtain ⟨m1, m2⟩ := owned'_mem (getD_mem' hjl)
    have h := q3 ((a.T.owned' a.T.internal a.T.internal.len).getD j 0) m1 m2
    rw [pos_getD a _ j hjl, Nat.mul_comm] at h
    unfold faceL faceR
    refine ⟨?_, ?_⟩
    · rw [h 0 (by omega), h 1 (by omega), h 2 (by omega)]
    · rw [← h 3 (by omega), ← h 4 (by omega), ← h 5 (by omega)]
  obtain ⟨cn', r1, e1, e2, e3, e4, e5⟩ := interiorM_apply P ha.T hR he hF hM.cnLen (rhs := Arr.calloc (3 * a.nc) (some 0)) rfl M.dtime u
  obtain ⟨ops', r2, i1, i2, i3, i4⟩ := boundaries_apply P ha.T he hu dt hΦ ha.Bs e3
  rw [hM.dtime] at e5
  refine ⟨(⟨M.coeffs, g, q, _, M.dtime, ops'⟩, r2), ?_, ⟨cn', ⟨hM.coeffLen, hM.coeffs, fun k hk => (hg k hk).1, q2.trans hM.qFace, hM.dtime,
    e2.trans hM.cnLen, ⟨g0, f, c, v, q, hR, rfl⟩, ⟨_, i2⟩⟩, e5⟩, i3, ?_⟩
  · unfold musclFluxesC
    rw [q1]
    show Option.bind ((M.interior.withFaces q).applyAdd M.dtime u _) _ = _
    rw [hI]
    show Option.bind ((interiorMC P a.T.numOwnedInternal g0 f c v eta q cn).applyAdd M.dtime u _) _ = _
    rw [e1]
    show Option.map _ (compositeAdd dt u M.flux r1) = _
    rw [i1]
    rfl
  · intro o k hk
    show r2.val (3 * o + k) = _
    rw [i4 o k hk, e4 o k hk]
    rfl

/-! ### In terms of edges treated one by one -/

/-- the process as `SecondOrder.lean` has it -/
noncomputable def MCProc.mproc (a : MCProc) : MProc where
  pm := ceedMeshOf a.T a.Bs a.nc
  x := fun c => (a.centroids.val c).1
  y := fun c => (a.centroids.val c).2
  edges := (List.range a.T.internal.len).map a.G.medge

theorem MCProc.mproc_ls (a : MCProc) : a.mproc.ls = a.G.ls := RDy.mproc_ls a.pproc

theorem musclAdd_none (P : FlowParams) (T : CTables) (eta : Arr ℝ) (sL sR : ℕ → Cons) (c k e : ℕ) : musclAdd P T eta sL sR c k none e = none := by
  unfold musclAdd
  rw [Num.none_add, Num.none_add]

theorem musclAdd_nan {P : FlowParams} {T : CTables} {eta : Arr ℝ} {sL sR : ℕ → Cons} {e : ℕ} (h : musclFC P T eta sL sR e = none)
    (k : ℕ) (s : Num) : musclAdd P T eta sL sR (T.l2o.val (T.leftOf (T.internal.val e))) k s e = none := by
  unfold musclAdd
  rw [h]
  unfold recv
  rw [if_pos ⟨rfl, rfl⟩]
  show Num.add (Num.add s none) _ = none
  rw [Num.add_none, Num.none_add]

/-- the flux of an edge, with the bed elevations at the vertices -/
theorem ceedEdge2R_eq (P : FlowParams) (l : Limiter) (a : MCProc) (u : Arr ℝ) (X Y : ℕ → ℕ → ℝ) (f : ℕ → Flux) (e : ℕ) :
    ceedEdge2R P a.mproc.pm f (reconstructEdge l a.G.ls (fieldOf (stateAt u)) (⟨X 0, X 1, X 2⟩, ⟨Y 0, Y 1, Y 2⟩) (a.G.medge e)) =
      (musclFC P a.T a.T.vz (faceL l a.G u X Y) (faceR l a.G u X Y) e).map fun F =>
        addAt (addAt f (a.T.l2o.val (a.T.leftOf (a.T.internal.val e)))
          (F.1.smul (-a.T.elen.val (a.T.internal.val e) / a.T.area.val (a.T.leftOf (a.T.internal.val e)))))
          (a.T.l2o.val (a.T.R (a.T.internal.val e))) (F.1.smul (a.T.elen.val (a.T.internal.val e) / a.T.area.val (a.T.R (a.T.internal.val e)))) := by
  unfold musclFC
  rw [computeDhv_bed]
  rfl

theorem internalM_entry (P : FlowParams) (l : Limiter) (a : MCProc) (u : Arr ℝ) (X Y : ℕ → ℕ → ℝ) (c i : ℕ) :
    ∀ (es : List ℕ) (f g : ℕ → Flux),
      (((es.map a.G.medge).filter MEdge.owned).map
        (reconstructEdge l a.G.ls (fieldOf (stateAt u)) (⟨X 0, X 1, X 2⟩, ⟨Y 0, Y 1, Y 2⟩))).foldlM (ceedEdge2R P a.mproc.pm) f = some g →
      (es.filter (a.T.own a.T.internal)).foldl (musclAdd P a.T a.T.vz (faceL l a.G u X Y) (faceR l a.G u X Y) c i) (some ((f c).comp i)) =
        some ((g c).comp i) := by
  intro es
  induction es with
  | nil => intro f g h; cases h; rfl
  | cons e es ih =>
    intro f g h
    by_cases hw : a.T.own a.T.internal e = true
    · rw [List.map_cons, List.filter_cons_of_pos (show (a.G.medge e).owned = true from hw), List.map_cons] at h
      obtain ⟨f', h1, h2⟩ := foldlM_cons_some h
      rw [List.filter_cons_of_pos hw, List.foldl_cons, ← ih f' g h2]
      congr 1
      rw [ceedEdge2R_eq] at h1
      obtain ⟨F, hF, hf'⟩ := Option.map_eq_some_iff.mp h1
      unfold musclAdd
      rw [hF, ← hf', addAt_comp, addAt_comp]
      rfl
    · rw [List.map_cons, List.filter_cons_of_neg (show ¬ (a.G.medge e).owned = true from hw)] at h
      rw [List.filter_cons_of_neg hw]
      exact ih f g h

theorem internalM_nan (P : FlowParams) (l : Limiter) (a : MCProc) (u : Arr ℝ) (X Y : ℕ → ℕ → ℝ) :
    ∀ (es : List ℕ) (f : ℕ → Flux),
      (((es.map a.G.medge).filter MEdge.owned).map
        (reconstructEdge l a.G.ls (fieldOf (stateAt u)) (⟨X 0, X 1, X 2⟩, ⟨Y 0, Y 1, Y 2⟩))).foldlM (ceedEdge2R P a.mproc.pm) f = none →
      ∃ e ∈ es.filter (a.T.own a.T.internal), musclFC P a.T a.T.vz (faceL l a.G u X Y) (faceR l a.G u X Y) e = none := by
  intro es
  induction es with
  | nil => intro f h; cases h
  | cons e es ih =>
    intro f h
    by_cases hw : a.T.own a.T.internal e = true
    · rw [List.map_cons, List.filter_cons_of_pos (show (a.G.medge e).owned = true from hw), List.map_cons, List.foldlM_cons, ceedEdge2R_eq] at h
      rw [List.filter_cons_of_pos hw]
      cases hF : musclFC P a.T a.T.vz (faceL l a.G u X Y) (faceR l a.G u X Y) e with
      | none => exact ⟨e, List.mem_cons_self, hF⟩
      | some F =>
        rw [hF] at h
        obtain ⟨e', h1, h2⟩ := ih _ h
        exact ⟨e', List.mem_cons_of_mem _ h1, h2⟩
    · rw [List.map_cons, List.filter_cons_of_neg (show ¬ (a.G.medge e).owned = true from hw)] at h
      rw [List.filter_cons_of_neg hw]
      exact ih f h

/-! ### All processes -/

variable {N : ℕ} {pr : Fin N → MCProc} {root : Fin N → ℕ → Fin N × ℕ} {gid : Fin N → ℕ → ℕ} {nes nvs : Fin N → ℕ}

/-- What the tables of all processes have to satisfy: those of each process, and the star forest of the exchange fits them. -/
structure MCProcs.Valid (pr : Fin N → MCProc) (root : Fin N → ℕ → Fin N × ℕ) (gid : Fin N → ℕ → ℕ) (ne nv : Fin N → ℕ) : Prop where
  procs : Procs.Valid (fun p => (pr p).pproc) root gid ne nv
  each : ∀ p, (pr p).Valid (ne p) (nv p)

/-- the gradients in `x` that process `p` has after the exchange -/
noncomputable def gradX (pr : Fin N → MCProc) (gid : Fin N → ℕ → ℕ) (u : Fin N → Arr ℝ) (p : Fin N) (k : ℕ) : ℕ → ℝ :=
  communicated (fun p => (pr p).mproc) gid (fun p => lsGradX (pr p).mproc.ls (compAt (u p) k)) p

/-- the gradients in `y` that process `p` has after the exchange -/
noncomputable def gradY (pr : Fin N → MCProc) (gid : Fin N → ℕ → ℕ) (u : Fin N → Arr ℝ) (p : Fin N) (k : ℕ) : ℕ → ℝ :=
  communicated (fun p => (pr p).mproc) gid (fun p => lsGradY (pr p).mproc.ls (compAt (u p) k)) p

/-- the left state of an edge in an evaluation with the solutions `u` -/
noncomputable def usedL (l : Limiter) (pr : Fin N → MCProc) (gid : Fin N → ℕ → ℕ) (u : Fin N → Arr ℝ) (p : Fin N) : ℕ → Cons :=
  faceL l (pr p).G (u p) (gradX pr gid u p) (gradY pr gid u p)

/-- the right state -/
noncomputable def usedR (l : Limiter) (pr : Fin N → MCProc) (gid : Fin N → ℕ → ℕ) (u : Fin N → Arr ℝ) (p : Fin N) : ℕ → Cons :=
  faceR l (pr p).G (u p) (gradX pr gid u p) (gradY pr gid u p)

theorem evaluationMC_spec (h : MCProcs.Valid pr root gid nes nvs) (P : FlowParams) (l : Limiter) {eta : Fin N → Arr ℝ}
    (he : ∀ p, (eta p).len = nvs p) {M : Fin N → MusclC} {cn : Fin N → Arr Num} (hM : ∀ p, (M p).Ready P (pr p) (eta p) (cn p)) (dt : ℝ)
    {u : Fin N → Arr ℝ} (hu : ∀ p, (u p).len = 3 * (pr p).nc) :
    ∃ r, evaluationMC l pr root M dt u = some r ∧ ∀ p, (∃ cn', (r p).1.Ready P (pr p) (eta p) cn' ∧
        ∀ j < (pr p).T.numOwnedInternal, ∀ k < 2, cn'.val (2 * j + k) = ((cn p).val (2 * j + k)).add
          (musclCourant P (pr p).T (eta p) (usedL l pr gid u p) (usedR l pr gid u p) 0
            (((pr p).T.owned' (pr p).T.internal (pr p).T.internal.len).getD j 0) k)) ∧
      (r p).2.len = 3 * (pr p).nc ∧ ∀ o k, k < 3 → (r p).2.val (3 * o + k) = boundariesAdd P (pr p).T (eta p) (u p) o k
        (((pr p).T.owned' (pr p).T.internal (pr p).T.internal.len).foldl
          (musclAdd P (pr p).T (eta p) (usedL l pr gid u p) (usedR l pr gid u p) o k) (some 0)) (pr p).Bs := by
  obtain ⟨g, a1, a2⟩ := allProcs_spec (f := fun p => gradientsB (pr p).T.toTables (pr p).nc (M p).coeffs (u p) (M p).grad)
    fun p => gradientsB_spec (h.each p).G (hM p).coeffLen (hM p).coeffs (hu p) (hM p).grad
  obtain ⟨g', b1, b2⟩ := exchangeB_spec h.procs (g := g)
    (X := fun k γ => (gradWrites (fun p => (pr p).pproc.mproc) gid fun p => lsGradX (pr p).pproc.mproc.ls (compAt (u p) k)).foldl
      (fun (g : ℕ → ℝ) w => Function.update g w.1 w.2) (fun _ => 0) γ)
    (Y := fun k γ => (gradWrites (fun p => (pr p).pproc.mproc) gid fun p => lsGradY (pr p).pproc.mproc.ls (compAt (u p) k)).foldl
      (fun (g : ℕ → ℝ) w => Function.update g w.1 w.2) (fun _ => 0) γ)
    (fun p i hi => (a2 p).2 i hi) (fun p c hc hw i _ => by
      have x := communicated_owned h.procs (fun p => lsGradX (pr p).pproc.mproc.ls (compAt (u p) i)) hc hw p rfl
      have y := communicated_owned h.procs (fun p => lsGradY (pr p).pproc.mproc.ls (compAt (u p) i)) hc hw p rfl
      unfold communicated at x y
      rw [x, y, RDy.mproc_ls]
      exact ⟨rfl, rfl⟩)
  obtain ⟨r, c1, c2⟩ := allProcs_spec (f := fun p => musclFluxesC l (pr p) (M p) (g' p) dt (u p))
    fun p => musclFluxesC_spec P l (h.each p) (he p) (hM p) (X := gradX pr gid u p) (Y := gradY pr gid u p) (b2 p) dt (hu p)
  refine ⟨r, ?_, fun p => (c2 p).2⟩
  unfold evaluationMC
  rw [a1]
  show (exchangeB _ root g).bind _ = _
  rw [b1]
  exact c1

/-- after any evaluations the memory is ready -/
theorem evaluationsMC_spec (h : MCProcs.Valid pr root gid nes nvs) (P : FlowParams) (l : Limiter) {eta : Fin N → Arr ℝ}
    (he : ∀ p, (eta p).len = nvs p) : ∀ (S : List (ℝ × (Fin N → Arr ℝ))), (∀ s ∈ S, ∀ p, (s.2 p).len = 3 * (pr p).nc) →
    ∀ {M : Fin N → MusclC} {cn : Fin N → Arr Num}, (∀ p, (M p).Ready P (pr p) (eta p) (cn p)) →
    ∃ M', evaluationsMC l pr root S M = some M' ∧ ∀ p, ∃ cn', (M' p).Ready P (pr p) (eta p) cn' ∧
      ∀ j < (pr p).T.numOwnedInternal, ∀ k < 2, cn'.val (2 * j + k) = S.foldl (fun (x : Num) s => x.add
        (musclCourant P (pr p).T (eta p) (usedL l pr gid s.2 p) (usedR l pr gid s.2 p) 0
          (((pr p).T.owned' (pr p).T.internal (pr p).T.internal.len).getD j 0) k)) ((cn p).val (2 * j + k)) := by
  intro S
  induction S with
  | nil => intro _ M cn hM; exact ⟨M, rfl, fun p => ⟨cn p, hM p, fun _ _ _ _ => rfl⟩⟩
  | cons s S ih =>
    intro hS M cn hM
    obtain ⟨dt, u⟩ := s
    obtain ⟨r, e1, e2⟩ := evaluationMC_spec h P l he hM dt (hS (dt, u) List.mem_cons_self)
    choose cn1 hc1 using fun p => (e2 p).1
    obtain ⟨M', i1, i2⟩ := ih (fun s hs => hS s (List.mem_cons_of_mem _ hs)) (fun p => (hc1 p).1)
    refine ⟨M', ?_, fun p => ?_⟩
    · unfold evaluationsMC
      rw [e1]
      exact i1
    · obtain ⟨cn', j1, j2⟩ := i2 p
      refine ⟨cn', j1, fun j hj k hk => ?_⟩
      rw [j2 j hj k hk, (hc1 p).2 j hj k hk]
      rfl

/-- the result of an evaluation in terms of the model that treats edges one by one -/
theorem divergenceM_entry (P : FlowParams) (l : Limiter) {u : Fin N → Arr ℝ} {p : Fin N} {f : ℕ → Flux}
    (h : ceedDivergence2R P l (fun p => (pr p).mproc) gid (fun p => stateAt (u p)) p = some f) (c k : ℕ) :
    boundariesAdd P (pr p).T (pr p).T.vz (u p) c k (((pr p).T.owned' (pr p).T.internal (pr p).T.internal.len).foldl
      (musclAdd P (pr p).T (pr p).T.vz (usedL l pr gid u p) (usedR l pr gid u p) c k) (some 0)) (pr p).Bs = some ((f c).comp k) := by
  unfold ceedDivergence2R at h
  obtain ⟨f1, h1, h2⟩ := Option.bind_eq_some_iff.mp h
  unfold faceStates at h1
  rw [MCProc.mproc_ls] at h1
  have h3 := internalM_entry P l (pr p) (u p) (gradX pr gid u p) (gradY pr gid u p) c k _ _ f1 h1
  have h4 : (Flux.zero.comp k) = 0 := comp_zero k
  rw [h4] at h3
  refine (congrArg (fun z : Num => boundariesAdd P (pr p).T (pr p).T.vz (u p) c k z (pr p).Bs) h3).trans ?_
  exact boundaries_entry P (pr p).T (pr p).Bs (pr p).nc (pr p).T.vz (u p) rfl c k (pr p).Bs f1 f h2

theorem divergenceM_nan (hv : MCProcs.Valid pr root gid nes nvs) (P : FlowParams) (l : Limiter) {u : Fin N → Arr ℝ} {p : Fin N}
    (h : ceedDivergence2R P l (fun p => (pr p).mproc) gid (fun p => stateAt (u p)) p = none) :
    ∃ c < (pr p).nc, ∀ k, boundariesAdd P (pr p).T (pr p).T.vz (u p) c k (((pr p).T.owned' (pr p).T.internal (pr p).T.internal.len).foldl
      (musclAdd P (pr p).T (pr p).T.vz (usedL l pr gid u p) (usedR l pr gid u p) c k) (some 0)) (pr p).Bs = none := by
  have hT := (hv.each p).T
  unfold ceedDivergence2R at h
  cases h1 : (faceStates l (fun p => (pr p).mproc) gid (fun p => stateAt (u p)) p).foldlM (ceedEdge2R P (pr p).mproc.pm) (fun _ => Flux.zero) with
  | none =>
    unfold faceStates at h1
    rw [MCProc.mproc_ls] at h1
    obtain ⟨e, he, hn⟩ := internalM_nan P l (pr p) (u p) (gradX pr gid u p) (gradY pr gid u p) _ _ h1
    replace he : e ∈ (pr p).T.owned' (pr p).T.internal (pr p).T.internal.len := he
    replace hn : musclFC P (pr p).T (pr p).T.vz (usedL l pr gid u p) (usedR l pr gid u p) e = none := hn
    refine ⟨_, hT.l2o_lt _ (hT.left_lt (hT.base.ids e (owned'_mem he).1)), fun k => ?_⟩
    rw [foldl_nan _ (fun a => musclAdd_none P _ _ _ _ _ k a) (fun s => musclAdd_nan hn k s) _ _ he, boundariesAdd_none]
  | some f1 =>
    rw [h1] at h
    obtain ⟨B, hBm, e, he, hn⟩ := boundaries_nan P (pr p).T (pr p).Bs (pr p).nc (pr p).T.vz (u p) rfl (pr p).Bs f1 h
    refine ⟨_, hT.l2o_lt _ (hT.left_lt (((hv.each p).Bs B hBm).ids e (owned'_mem he).1)), fun k => ?_⟩
    exact foldl_nan _ (fun B => foldl_none _ (fun e => bEdgeAdd_none P (pr p).T B (pr p).T.vz (u p) _ k e) _)
      (fun s => foldl_nan _ (fun a => bEdgeAdd_none P (pr p).T B (pr p).T.vz (u p) _ k a) (fun s => bEdgeAdd_nan hn k s) _ s he) _ _ hBm

end RDy
