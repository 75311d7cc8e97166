import Verif.Model.CeedTOp
import Verif.Lemmas.CeedOpRun
import Verif.Lemmas.BatchedTracer
import Mathlib.Tactic

/-! Lemmas about the assembled flux operators of the CEED backend in runs with sediment. -/

namespace RDy

variable {T : CTables} {nc n ne nv nt : ℕ}

theorem tStateOf_at (nt : ℕ) (u : Arr ℝ) (c : ℕ) : tStateOf (fun k => u.val ((3 + nt) * c + k)) = tStateAt nt u c := by
  unfold tStateOf tStateAt
  simp only [Nat.add_zero, Nat.add_assoc]

/-! ### Creation -/

/-- The arrays of offsets have `N` entries and those of the first edges `l` are set; `nd` components. -/
structure Offsets.SetT (nd : ℕ) (o : Offsets) (T : CTables) (ids : Arr ℕ) (N : ℕ) (l : List ℕ) : Prop where
  ql_len : o.ql.len = N
  qr_len : o.qr.len = N
  cl_len : o.cl.len = N
  cr_len : o.cr.len = N
  eb_len : o.eb.len = N
  ee_len : o.ee.len = N
  ql : ∀ j < l.length, o.ql.val j = some (nd * T.leftOf (ids.val (l.getD j 0)))
  cl : ∀ j < l.length, o.cl.val j = some (nd * T.l2o.val (T.leftOf (ids.val (l.getD j 0))))

theorem tOffsetBody_spec {nd : ℕ} (hT : T.Valid nc n ne nv) {ids : Arr ℕ} {o : Offsets} {l : List ℕ} {e N : ℕ} (hi : l.length < N)
    (ho : o.SetT nd T ids N l) (hr : ∀ j < l.length, o.qr.val j = some (nd * T.R (ids.val (l.getD j 0))))
    (hc : ∀ j < l.length, o.cr.val j = some (nd * T.l2o.val (T.R (ids.val (l.getD j 0)))))
    (hid : ids.val e < ne) (h2 : T.cellIds.val (2 * ids.val e + 1) ≠ -1) :
    ∃ o', tOffsetBody nd T o l.length e (ids.val e) = some o' ∧ o'.SetT nd T ids N (l ++ [e]) ∧
      (∀ j < (l ++ [e]).length, o'.qr.val j = some (nd * T.R (ids.val ((l ++ [e]).getD j 0)))) ∧
      (∀ j < (l ++ [e]).length, o'.cr.val j = some (nd * T.l2o.val (T.R (ids.val ((l ++ [e]).getD j 0))))) := by
  have hb := hT.base
  unfold tOffsetBody
  rw [Arr.get_some (show 2 * ids.val e < T.cellIds.len by rw [hb.cellIds]; omega)]
  show ∃ o', (T.cellIds.get (2 * ids.val e + 1)).bind _ = some o' ∧ _
  rw [Arr.get_some (show 2 * ids.val e + 1 < T.cellIds.len by rw [hb.cellIds]; omega)]
  show ∃ o', (asIndex (T.cellIds.val (2 * ids.val e))).bind _ = some o' ∧ _
  rw [asIndex_some (hb.left _ hid).1]
  show ∃ o', (asIndex (T.cellIds.val (2 * ids.val e + 1))).bind _ = some o' ∧ _
  rw [asIndex_some (hT.right_lt hid h2).1]
  show ∃ o', (o.ql.put l.length (some (nd * T.leftOf (ids.val e)))).bind _ = some o' ∧ _
  rw [put_at _ hi ho.ql_len]
  show ∃ o', (o.qr.put l.length (some (nd * T.R (ids.val e)))).bind _ = some o' ∧ _
  rw [put_at _ hi ho.qr_len]
  show ∃ o', (T.l2o.get (T.leftOf (ids.val e))).bind _ = some o' ∧ _
  rw [Arr.get_some (show T.leftOf (ids.val e) < T.l2o.len by rw [hb.l2o]; exact hT.left_lt hid)]
  show ∃ o', (o.cl.put l.length _).bind _ = some o' ∧ _
  rw [put_at _ hi ho.cl_len]
  show ∃ o', (T.l2o.get (T.R (ids.val e))).bind _ = some o' ∧ _
  rw [Arr.get_some (show T.R (ids.val e) < T.l2o.len by rw [hb.l2o]; exact (hT.right_lt hid h2).2)]
  show ∃ o', (o.cr.put l.length _).bind _ = some o' ∧ _
  rw [put_at _ hi ho.cr_len]
  show ∃ o', (T.vertexIds.get (2 * ids.val e)).bind _ = some o' ∧ _
  rw [Arr.get_some (show 2 * ids.val e < T.vertexIds.len by rw [hT.vertexIds]; omega)]
  show ∃ o', (T.vertexIds.get (2 * ids.val e + 1)).bind _ = some o' ∧ _
  rw [Arr.get_some (show 2 * ids.val e + 1 < T.vertexIds.len by rw [hT.vertexIds]; omega)]
  show ∃ o', (o.eb.put l.length _).bind _ = some o' ∧ _
  rw [put_at _ hi ho.eb_len]
  show ∃ o', (o.ee.put l.length _).map _ = some o' ∧ _
  rw [put_at _ hi ho.ee_len]
  refine ⟨_, rfl, ⟨ho.ql_len, ho.qr_len, ho.cl_len, ho.cr_len, ho.eb_len, ho.ee_len, ?_, ?_⟩, ?_, ?_⟩
  · exact set_concat (fun e => some (nd * T.leftOf (ids.val e))) ho.ql
  · exact set_concat (fun e => some (nd * T.l2o.val (T.leftOf (ids.val e)))) ho.cl
  · exact set_concat (fun e => some (nd * T.R (ids.val e))) hr
  · exact set_concat (fun e => some (nd * T.l2o.val (T.R (ids.val e)))) hc

theorem tbOffsetBody_spec {nd : ℕ} (hT : T.Valid nc n ne nv) {ids : Arr ℕ} {o : Offsets} {l : List ℕ} {e N : ℕ} (hi : l.length < N)
    (ho : o.SetT nd T ids N l) (hr : ∀ j < l.length, o.qr.val j = some (nd * l.getD j 0)) (hid : ids.val e < ne) :
    ∃ o', tbOffsetBody nd T o l.length e (ids.val e) = some o' ∧ o'.SetT nd T ids N (l ++ [e]) ∧
      ∀ j < (l ++ [e]).length, o'.qr.val j = some (nd * (l ++ [e]).getD j 0) := by
  have hb := hT.base
  unfold tbOffsetBody
  rw [Arr.get_some (show 2 * ids.val e < T.cellIds.len by rw [hb.cellIds]; omega)]
  show ∃ o', (asIndex (T.cellIds.val (2 * ids.val e))).bind _ = some o' ∧ _
  rw [asIndex_some (hb.left _ hid).1]
  show ∃ o', (o.ql.put l.length (some (nd * T.leftOf (ids.val e)))).bind _ = some o' ∧ _
  rw [put_at _ hi ho.ql_len]
  show ∃ o', (T.l2o.get (T.leftOf (ids.val e))).bind _ = some o' ∧ _
  rw [Arr.get_some (show T.leftOf (ids.val e) < T.l2o.len by rw [hb.l2o]; exact hT.left_lt hid)]
  show ∃ o', (o.cl.put l.length _).bind _ = some o' ∧ _
  rw [put_at _ hi ho.cl_len]
  show ∃ o', (o.qr.put l.length _).bind _ = some o' ∧ _
  rw [put_at _ hi ho.qr_len]
  show ∃ o', (T.vertexIds.get (2 * ids.val e)).bind _ = some o' ∧ _
  rw [Arr.get_some (show 2 * ids.val e < T.vertexIds.len by rw [hT.vertexIds]; omega)]
  show ∃ o', (T.vertexIds.get (2 * ids.val e + 1)).bind _ = some o' ∧ _
  rw [Arr.get_some (show 2 * ids.val e + 1 < T.vertexIds.len by rw [hT.vertexIds]; omega)]
  show ∃ o', (o.eb.put l.length _).bind _ = some o' ∧ _
  rw [put_at _ hi ho.eb_len]
  show ∃ o', (o.ee.put l.length _).map _ = some o' ∧ _
  rw [put_at _ hi ho.ee_len]
  refine ⟨_, rfl, ⟨ho.ql_len, ho.qr_len, ho.cl_len, ho.cr_len, ho.eb_len, ho.ee_len, ?_, ?_⟩, ?_⟩
  · exact set_concat (fun e => some (nd * T.leftOf (ids.val e))) ho.ql
  · exact set_concat (fun e => some (nd * T.l2o.val (T.leftOf (ids.val e)))) ho.cl
  · exact set_concat (fun e => some (nd * e)) hr

/-- The operator of the internal edges with the vectors `fl` and `cn` of its passive outputs. -/
noncomputable def interiorT (sv : TSolver) (P : FlowParams) (nt N : ℕ) (g : Arr ℝ) (o : Offsets) (fl cn : Arr Num) : COp where
  elems := N
  ins := [⟨.strided 6, 6, some g⟩, ⟨.offsets o.ql, 3 + nt, none⟩, ⟨.offsets o.qr, 3 + nt, none⟩]
  outs := [⟨.offsets o.cl, 3 + nt, none⟩, ⟨.offsets o.cr, 3 + nt, none⟩, ⟨.strided (3 + nt), 3 + nt, some fl⟩, ⟨.strided 2, 2, some cn⟩]
  kernel := tracerKernel sv P nt

/-- What the arrays of the operator of the internal edges hold. -/
structure InteriorReadyT (nt : ℕ) (T : CTables) (g : Arr ℝ) (o : Offsets) : Prop where
  len : g.len = 6 * T.numOwnedInternal
  geom : ∀ j < T.numOwnedInternal, ∀ k < 6,
    g.val (6 * j + k) = T.geom (T.internal.val ((T.owned' T.internal T.internal.len).getD j 0)) k
  set : o.SetT (3 + nt) T T.internal T.numOwnedInternal (T.owned' T.internal T.internal.len)
  qr : ∀ j < T.numOwnedInternal,
    o.qr.val j = some ((3 + nt) * T.R (T.internal.val ((T.owned' T.internal T.internal.len).getD j 0)))
  cr : ∀ j < T.numOwnedInternal,
    o.cr.val j = some ((3 + nt) * T.l2o.val (T.R (T.internal.val ((T.owned' T.internal T.internal.len).getD j 0))))

theorem malloc_setT (nd : ℕ) (T : CTables) (ids : Arr ℕ) (N : ℕ) : (Offsets.malloc N).SetT nd T ids N [] :=
  ⟨rfl, rfl, rfl, rfl, rfl, rfl, fun _ h => absurd h (Nat.not_lt_zero _), fun _ h => absurd h (Nat.not_lt_zero _)⟩

theorem createInteriorT_spec (sv : TSolver) (P : FlowParams) (nt : ℕ) (hT : T.Valid nc n ne nv) :
    ∃ g o, InteriorReadyT nt T g o ∧ createInteriorT sv P nt T = some (interiorT sv P nt T.numOwnedInternal g o
      (Arr.calloc ((3 + nt) * T.numOwnedInternal) (some 0)) (Arr.calloc (2 * T.numOwnedInternal) (some 0))) := by
  obtain ⟨g, hg1, hg2, hg3⟩ := ownedLoop_inv (T := T) (ids := T.internal) hT.base.ids hT.edgeOwned (body := geomBody T)
    (fun l g => g.len = 6 * T.numOwnedInternal ∧ ∀ j < l.length, ∀ k < 6, g.val (6 * j + k) = T.geom (T.internal.val (l.getD j 0)) k)
    (s := Arr.calloc (6 * T.numOwnedInternal) 0) ⟨rfl, fun _ h => absurd h (Nat.not_lt_zero _)⟩ (by
      rintro l e g he hw hl ⟨h1, h2⟩
      rw [← hT.count] at hl
      obtain ⟨g', e1, e2, e3⟩ := geomBody_spec hT (e := e) hl h1 (hT.base.ids e he) (hT.two e he hw)
      exact ⟨g', e1, e2.trans h1, rows_concat (fun e k => T.geom (T.internal.val e) k) h2 e3⟩)
  obtain ⟨o, ho1, ho2, ho3, ho4⟩ := ownedLoop_inv (T := T) (ids := T.internal) hT.base.ids hT.edgeOwned (body := tOffsetBody (3 + nt) T)
    (fun l o => o.SetT (3 + nt) T T.internal T.numOwnedInternal l ∧
      (∀ j < l.length, o.qr.val j = some ((3 + nt) * T.R (T.internal.val (l.getD j 0)))) ∧
      (∀ j < l.length, o.cr.val j = some ((3 + nt) * T.l2o.val (T.R (T.internal.val (l.getD j 0))))))
    (s := Offsets.malloc T.numOwnedInternal) ⟨malloc_setT _ _ _ _, fun _ h => absurd h (Nat.not_lt_zero _),
      fun _ h => absurd h (Nat.not_lt_zero _)⟩ (by
      rintro l e o he hw hl ⟨h1, h2, h3⟩
      rw [← hT.count] at hl
      exact tOffsetBody_spec hT hl h1 h2 h3 (hT.base.ids e he) (hT.two e he hw))
  refine ⟨g, o, ⟨hg2, ?_, ho2, ?_, ?_⟩, ?_⟩
  · intro j hj; exact hg3 j (by rw [← hT.count]; exact hj)
  · intro j hj; exact ho3 j (by rw [← hT.count]; exact hj)
  · intro j hj; exact ho4 j (by rw [← hT.count]; exact hj)
  · unfold createInteriorT
    rw [hg1]
    show Option.map _ (ownedLoopC T T.internal (tOffsetBody (3 + nt) T) _) = _
    rw [ho1]
    rfl

/-- The operator of a boundary with the vectors `fl` and `cn` of its passive outputs. -/
noncomputable def boundaryT (sv : TSolver) (P : FlowParams) (nt : ℕ) (mem : Mem) (B : TBnd) (N : ℕ) (g : Arr ℝ) (o : Offsets)
    (fl cn : Arr Num) : COp where
  elems := N
  ins := tbInputs nt B g o
  outs := [⟨.offsets o.cl, 3 + nt, none⟩, ⟨.strided (3 + nt), 3 + nt, some fl⟩, ⟨.strided 1, 1, some cn⟩]
  kernel := tracerBKernel sv P nt mem B.type

/-- What the arrays of the operator of a boundary hold. -/
structure BoundaryReadyT (nt : ℕ) (T : CTables) (B : TBnd) (g : Arr ℝ) (o : Offsets) : Prop where
  len : g.len = 5 * B.ids.len
  geom : ∀ j < (T.owned' B.ids B.ids.len).length, ∀ k < 5,
    g.val (5 * j + k) = T.bgeom (B.ids.val ((T.owned' B.ids B.ids.len).getD j 0)) k
  set : o.SetT (3 + nt) T B.ids B.ids.len (T.owned' B.ids B.ids.len)
  qr : ∀ j < (T.owned' B.ids B.ids.len).length, o.qr.val j = some ((3 + nt) * (T.owned' B.ids B.ids.len).getD j 0)

theorem createBoundaryT_spec (sv : TSolver) (P : FlowParams) (mem : Mem) (hT : T.Valid nc n ne nv) {B : TBnd} (hB : B.Valid ne nt) :
    ∃ g o, BoundaryReadyT nt T B g o ∧ createBoundaryT sv P nt mem T B = some (boundaryT sv P nt mem B (T.owned' B.ids B.ids.len).length g o
      (Arr.calloc ((3 + nt) * B.ids.len) (some 0)) (Arr.calloc (1 * B.ids.len) (some 0))) := by
  have hle := owned'_len_self T B.ids B.ids.len
  obtain ⟨w, hw1, -⟩ := ownedLoop_inv (T := T) (ids := B.ids) hB.ids hT.edgeOwned (body := fun (_ : Unit) _ _ _ => some ())
    (fun _ _ => True) (s := ()) trivial (by rintro l e ⟨⟩ _ _ _ _; exact ⟨(), rfl, trivial⟩)
  obtain ⟨g, hg1, hg2, hg3⟩ := ownedLoop_inv (T := T) (ids := B.ids) hB.ids hT.edgeOwned (body := bGeomBody T)
    (fun l g => g.len = 5 * B.ids.len ∧ ∀ j < l.length, ∀ k < 5, g.val (5 * j + k) = T.bgeom (B.ids.val (l.getD j 0)) k)
    (s := Arr.calloc (5 * B.ids.len) 0) ⟨rfl, fun _ h => absurd h (Nat.not_lt_zero _)⟩ (by
      rintro l e g he hw hl ⟨h1, h2⟩
      obtain ⟨g', e1, e2, e3⟩ := bGeomBody_spec hT (e := e) (hl.trans_le hle) h1 (hB.ids e he)
      exact ⟨g', e1, e2.trans h1, rows_concat (fun e k => T.bgeom (B.ids.val e) k) h2 e3⟩)
  obtain ⟨o, ho1, ho2, ho3⟩ := ownedLoop_inv (T := T) (ids := B.ids) hB.ids hT.edgeOwned (body := tbOffsetBody (3 + nt) T)
    (fun l o => o.SetT (3 + nt) T B.ids B.ids.len l ∧ ∀ j < l.length, o.qr.val j = some ((3 + nt) * l.getD j 0))
    (s := Offsets.malloc B.ids.len) ⟨malloc_setT _ _ _ _, fun _ h => absurd h (Nat.not_lt_zero _)⟩ (by
      rintro l e o he hw hl ⟨h1, h2⟩
      exact tbOffsetBody_spec hT (hl.trans_le hle) h1 h2 (hB.ids e he))
  refine ⟨g, o, ⟨hg2, hg3, ho2, ho3⟩, ?_⟩
  unfold createBoundaryT countOwned
  rw [hw1]
  show (ownedLoopC T B.ids (bGeomBody T) _).bind _ = _
  rw [hg1]
  show Option.map _ (ownedLoopC T B.ids (tbOffsetBody (3 + nt) T) _) = _
  rw [ho1]
  rfl

/-! ### Internal edges -/

/-- the flux of an internal edge -/
noncomputable def edgeFT (sv : TSolver) (P : FlowParams) (nt : ℕ) (T : CTables) (u : Arr ℝ) (id : ℕ) : Option (ℕ → ℝ) :=
  tracerFluxCeed sv P.g P.tinyH nt (tStateAt nt u (T.leftOf id)) (tStateAt nt u (T.R id)) (T.sn.val id) (T.cn.val id)

/-- the largest wave speed of an internal edge -/
noncomputable def edgeAT (P : FlowParams) (nt : ℕ) (T : CTables) (u : Arr ℝ) (id : ℕ) : Num :=
  tracerAmaxCeed P.g P.tinyH (tStateAt nt u (T.leftOf id)) (tStateAt nt u (T.R id)) (T.sn.val id) (T.cn.val id)

/-- what the Q-function gives for an internal edge -/
noncomputable def edgeOutT (sv : TSolver) (P : FlowParams) (nt : ℕ) (T : CTables) (u : Arr ℝ) (dt : ℝ) (id : ℕ) : List (ℕ → Num) :=
  [fun k => Num.scale ((edgeFT sv P nt T u id).map fun F => F k) (-T.elen.val id / T.area.val (T.leftOf id)),
   fun k => Num.scale ((edgeFT sv P nt T u id).map fun F => F k) (T.elen.val id / T.area.val (T.R id)),
   fun k => (edgeFT sv P nt T u id).map fun F => F k,
   fun k => (edgeAT P nt T u id).map fun a =>
      if k = 0 then -a * (-T.elen.val id / T.area.val (T.leftOf id)) * dt else a * (T.elen.val id / T.area.val (T.R id)) * dt]

theorem flat_le {D c N : ℕ} (h : c < N) : D * c + D ≤ D * N := by
  calc D * c + D = D * (c + 1) := by ring
    _ ≤ D * N := Nat.mul_le_mul_left _ h

theorem interior_pointT (sv : TSolver) (P : FlowParams) (hn : nt ≤ maxSedimentClasses) (hT : T.Valid nc n ne nv) {g : Arr ℝ} {o : Offsets}
    (hR : InteriorReadyT nt T g o) {u : Arr ℝ} (hu : u.len = (3 + nt) * nc) (fl cn : Arr Num) (dt : ℝ) {j : ℕ}
    (hj : j < T.numOwnedInternal) :
    (interiorT sv P nt T.numOwnedInternal g o fl cn).point dt u j =
      some (edgeOutT sv P nt T u dt (T.internal.val ((T.owned' T.internal T.internal.len).getD j 0))) := by
  obtain ⟨hid, h2⟩ := interior_id hT hj
  have hjl : j < (T.owned' T.internal T.internal.len).length := by rw [← hT.count]; exact hj
  have hL := flat_le (D := 3 + nt) (hT.left_lt hid)
  have hRt := flat_le (D := 3 + nt) (hT.right_lt hid h2).2
  have hg := hR.geom j hj
  have hq := hR.set
  unfold COp.point interiorT gatherAll
  dsimp only
  rw [gather_strided hj hR.len]
  unfold gatherAll
  rw [gather_offsets (v := none) hj hq.ql_len (hq.ql j hjl) (show _ ≤ u.len by omega)]
  unfold gatherAll
  rw [gather_offsets (v := none) hj hq.qr_len (hR.qr j hj) (show _ ≤ u.len by omega)]
  unfold gatherAll
  generalize T.internal.val ((T.owned' T.internal T.internal.len).getD j 0) = id at *
  have g0 : g.val (6 * j + 0) = T.sn.val id := hg 0 (by omega)
  have g1 : g.val (6 * j + 1) = T.cn.val id := hg 1 (by omega)
  have g2 : g.val (6 * j + 2) = -T.elen.val id / T.area.val (T.leftOf id) := hg 2 (by omega)
  have g3 : g.val (6 * j + 3) = T.elen.val id / T.area.val (T.R id) := hg 3 (by omega)
  show tracerKernel sv P nt dt [fun k => g.val (6 * j + k), fun k => u.val ((3 + nt) * T.leftOf id + k),
    fun k => u.val ((3 + nt) * T.R id + k)] = _
  unfold tracerKernel
  dsimp only
  rw [if_pos hn]
  simp only [g0, g1, g2, g3, tStateOf_at]
  rfl

/-- what an internal edge adds to component `k` of place `c` -/
noncomputable def edgeAddT (sv : TSolver) (P : FlowParams) (nt : ℕ) (T : CTables) (u : Arr ℝ) (c k : ℕ) (s : Num) (e : ℕ) : Num :=
  (s.add (recv true (T.l2o.val (T.leftOf (T.internal.val e))) c (Num.scale ((edgeFT sv P nt T u (T.internal.val e)).map fun F => F k)
      (-T.elen.val (T.internal.val e) / T.area.val (T.leftOf (T.internal.val e)))))).add
    (recv true (T.l2o.val (T.R (T.internal.val e))) c (Num.scale ((edgeFT sv P nt T u (T.internal.val e)).map fun F => F k)
      (T.elen.val (T.internal.val e) / T.area.val (T.R (T.internal.val e)))))

/-- the Courant numbers of an internal edge (`k = 0`: for the left cell) -/
noncomputable def edgeCourantT (P : FlowParams) (nt : ℕ) (T : CTables) (u : Arr ℝ) (dt : ℝ) (id k : ℕ) : Num :=
  (edgeAT P nt T u id).map fun a =>
    if k = 0 then -a * (-T.elen.val id / T.area.val (T.leftOf id)) * dt else a * (T.elen.val id / T.area.val (T.R id)) * dt

theorem interior_applyT (sv : TSolver) (P : FlowParams) (hn : nt ≤ maxSedimentClasses) (hT : T.Valid nc n ne nv) {g : Arr ℝ} {o : Offsets}
    (hR : InteriorReadyT nt T g o) {u : Arr ℝ} (hu : u.len = (3 + nt) * nc) {fl cn rhs : Arr Num}
    (hf : fl.len = (3 + nt) * T.numOwnedInternal) (hc : cn.len = 2 * T.numOwnedInternal) (hr : rhs.len = (3 + nt) * nc) (dt : ℝ) :
    ∃ fl' cn' rhs', (interiorT sv P nt T.numOwnedInternal g o fl cn).applyAdd dt u rhs =
        some (interiorT sv P nt T.numOwnedInternal g o fl' cn', rhs') ∧ fl'.len = fl.len ∧ cn'.len = cn.len ∧ rhs'.len = rhs.len ∧
      (∀ c k, k < 3 + nt → rhs'.val ((3 + nt) * c + k) =
        (T.owned' T.internal T.internal.len).foldl (edgeAddT sv P nt T u c k) (rhs.val ((3 + nt) * c + k))) ∧
      (∀ j < T.numOwnedInternal, ∀ k < 2, cn'.val (2 * j + k) = (cn.val (2 * j + k)).add
        (edgeCourantT P nt T u dt (T.internal.val ((T.owned' T.internal T.internal.len).getD j 0)) k)) := by
  obtain ⟨E, hE1, hE2⟩ := points_some (op := interiorT sv P nt T.numOwnedInternal g o fl cn) (dt := dt) (u := u)
    (E := fun j => edgeOutT sv P nt T u dt (T.internal.val ((T.owned' T.internal T.internal.len).getD j 0)))
    (fun j hj => interior_pointT sv P hn hT hR hu fl cn dt hj)
  replace hE2 : ∀ j < T.numOwnedInternal,
    E j = edgeOutT sv P nt T u dt (T.internal.val ((T.owned' T.internal T.internal.len).getD j 0)) := hE2
  have hq := hR.set
  have hcnt : ∀ j < T.numOwnedInternal, j < (T.owned' T.internal T.internal.len).length := fun j hj => by rw [← hT.count]; exact hj
  obtain ⟨r1, a1, a2, a3⟩ := addAll_spec (o := ⟨.offsets o.cl, 3 + nt, none⟩) (elems := T.numOwnedInternal) (f := 0) (n := nc) (E := E)
    (fun j => T.l2o.val (T.leftOf (T.internal.val ((T.owned' T.internal T.internal.len).getD j 0))))
    (fun j k => Num.scale ((edgeFT sv P nt T u (T.internal.val ((T.owned' T.internal T.internal.len).getD j 0))).map fun F => F k)
      (-T.elen.val (T.internal.val ((T.owned' T.internal T.internal.len).getD j 0)) /
        T.area.val (T.leftOf (T.internal.val ((T.owned' T.internal T.internal.len).getD j 0)))))
    (a := rhs) (fun j hj => base_offsets hj hq.cl_len (hq.cl j (hcnt j hj)))
    (fun j hj => hT.l2o_lt _ (hT.left_lt (interior_id hT hj).1)) (fun j hj k => by rw [hE2 j hj]; rfl) hr
  obtain ⟨r2, b1, b2, b3⟩ := addAll_spec (o := ⟨.offsets o.cr, 3 + nt, none⟩) (elems := T.numOwnedInternal) (f := 1) (n := nc) (E := E)
    (fun j => T.l2o.val (T.R (T.internal.val ((T.owned' T.internal T.internal.len).getD j 0))))
    (fun j k => Num.scale ((edgeFT sv P nt T u (T.internal.val ((T.owned' T.internal T.internal.len).getD j 0))).map fun F => F k)
      (T.elen.val (T.internal.val ((T.owned' T.internal T.internal.len).getD j 0)) /
        T.area.val (T.R (T.internal.val ((T.owned' T.internal T.internal.len).getD j 0)))))
    (a := r1) (fun j hj => base_offsets hj hq.cr_len (hR.cr j hj))
    (fun j hj => hT.l2o_lt _ (hT.right_lt (interior_id hT hj).1 (interior_id hT hj).2).2) (fun j hj k => by rw [hE2 j hj]; rfl)
    (a2.trans hr)
  obtain ⟨f1, c1, c2, c3⟩ := addAll_spec (o := ⟨.strided (3 + nt), 3 + nt, some fl⟩) (elems := T.numOwnedInternal) (f := 2)
    (n := T.numOwnedInternal) (E := E) (fun j => j)
    (fun j k => (edgeFT sv P nt T u (T.internal.val ((T.owned' T.internal T.internal.len).getD j 0))).map fun F => F k)
    (a := fl) (fun j hj => rfl) (fun j hj => hj) (fun j hj k => by rw [hE2 j hj]; rfl) hf
  obtain ⟨n1, d1, d2, d3⟩ := addAll_spec (o := ⟨.strided 2, 2, some cn⟩) (elems := T.numOwnedInternal) (f := 3)
    (n := T.numOwnedInternal) (E := E) (fun j => j)
    (fun j k => edgeCourantT P nt T u dt (T.internal.val ((T.owned' T.internal T.internal.len).getD j 0)) k)
    (a := cn) (fun j hj => rfl) (fun j hj => hj) (fun j hj k => by rw [hE2 j hj]; rfl) hc
  refine ⟨f1, n1, r2, ?_, c2, d2, b2.trans a2, ?_, ?_⟩
  · unfold COp.applyAdd
    rw [hE1]
    show Option.map _ (addOutputs T.numOwnedInternal E 0 _ rhs) = _
    unfold interiorT addOutputs
    dsimp only
    rw [a1]
    unfold addOutputs
    dsimp only [Option.bind]
    rw [b1]
    unfold addOutputs
    dsimp only [Option.bind]
    rw [c1]
    unfold addOutputs
    dsimp only [Option.bind]
    rw [d1]
    rfl
  · intro c k hk
    have h1 := b3 c k hk
    have h2 := a3 c k hk
    dsimp only at h1 h2
    rw [h1, h2]
    refine (foldl_two _ _ _ _).trans ?_
    rw [hT.count]
    exact foldl_range_getD (edgeAddT sv P nt T u c k) _ _
  · intro j hj k hk
    have h1 := d3 j k hk
    dsimp only at h1
    rw [h1]
    refine (foldl_own _ _ _ _).trans ?_
    rw [if_pos hj]

/-! ### Boundaries -/

/-- the flux of edge number `e` of a boundary -/
noncomputable def bEdgeFT (sv : TSolver) (P : FlowParams) (nt : ℕ) (T : CTables) (B : TBnd) (u : Arr ℝ) (e : ℕ) : Option (ℕ → ℝ) :=
  boundaryTFluxCeed sv P nt (B.cond nt e) (tStateAt nt u (T.leftOf (B.ids.val e))) (T.sn.val (B.ids.val e)) (T.cn.val (B.ids.val e))

/-- the state on the other side of edge number `e` of a boundary -/
noncomputable def bOtherT (nt : ℕ) (T : CTables) (B : TBnd) (u : Arr ℝ) (e : ℕ) : TCons :=
  match B.type with
  | .dirichlet => tStateAt nt B.values e
  | .reflecting => reflectTCeed (tStateAt nt u (T.leftOf (B.ids.val e))) (T.sn.val (B.ids.val e)) (T.cn.val (B.ids.val e))

/-- the largest wave speed of edge number `e` of a boundary -/
noncomputable def bEdgeAT (P : FlowParams) (nt : ℕ) (T : CTables) (B : TBnd) (u : Arr ℝ) (e : ℕ) : Num :=
  tracerAmaxCeed P.g P.tinyH (tStateAt nt u (T.leftOf (B.ids.val e))) (bOtherT nt T B u e) (T.sn.val (B.ids.val e)) (T.cn.val (B.ids.val e))

/-- minus length over area -/
noncomputable def tbWeight (T : CTables) (B : TBnd) (e : ℕ) : ℝ := -T.elen.val (B.ids.val e) / T.area.val (T.leftOf (B.ids.val e))

/-- no edge of the process on a Dirichlet boundary is dry on both sides -/
def TBnd.Wet (B : TBnd) (P : FlowParams) (nt : ℕ) (T : CTables) (u : Arr ℝ) : Prop :=
  B.type = .dirichlet → ∀ e ∈ T.owned' B.ids B.ids.len,
    (tStateAt nt u (T.leftOf (B.ids.val e))).q.h > P.tinyH ∨ (tStateAt nt B.values e).q.h > P.tinyH

/-- what is written to the output for the flux of edge `e` -/
def BWrites (sv : TSolver) (P : FlowParams) (nt : ℕ) (mem : Mem) (T : CTables) (B : TBnd) (u : Arr ℝ) (dt : ℝ) (e : ℕ) (x : ℕ → Num) : Prop :=
  (B.type = .dirichlet → x = fun k => (bEdgeFT sv P nt T B u e).map fun F => F k) ∧ (B.type = .reflecting → ∃ l, x = mem dt l)

theorem boundary_pointT (sv : TSolver) (P : FlowParams) (mem : Mem) (hn : nt ≤ maxSedimentClasses) (hT : T.Valid nc n ne nv) {B : TBnd}
    (hB : B.Valid ne nt) {g : Arr ℝ} {o : Offsets} (hR : BoundaryReadyT nt T B g o) {u : Arr ℝ} (hu : u.len = (3 + nt) * nc)
    (hw : B.Wet P nt T u) (fl cn : Arr Num) (dt : ℝ) {j : ℕ} (hj : j < (T.owned' B.ids B.ids.len).length) :
    ∃ x, BWrites sv P nt mem T B u dt ((T.owned' B.ids B.ids.len).getD j 0) x ∧
    (boundaryT sv P nt mem B (T.owned' B.ids B.ids.len).length g o fl cn).point dt u j =
      some [fun k => Num.scale ((bEdgeFT sv P nt T B u ((T.owned' B.ids B.ids.len).getD j 0)).map fun F => F k)
          (tbWeight T B ((T.owned' B.ids B.ids.len).getD j 0)), x,
        fun _ => (bEdgeAT P nt T B u ((T.owned' B.ids B.ids.len).getD j 0)).map fun a =>
          -a * tbWeight T B ((T.owned' B.ids B.ids.len).getD j 0) * dt] := by
  have hm := owned'_mem (getD_mem' hj)
  have hmem := getD_mem' hj
  have hid := hB.ids _ hm.1
  have hL := flat_le (D := 3 + nt) (hT.left_lt hid)
  have hjN : j < B.ids.len := hj.trans_le (owned'_len_self T B.ids B.ids.len)
  have hg := hR.geom j hj
  have hq := hR.set
  have hqr := hR.qr j hj
  have q1 := hq.ql j hj
  have hval := hB.values
  have hv := flat_le (D := 3 + nt) hm.1
  generalize (T.owned' B.ids B.ids.len).getD j 0 = e at *
  have g0 : g.val (5 * j + 0) = T.sn.val (B.ids.val e) := hg 0 (by omega)
  have g1 : g.val (5 * j + 1) = T.cn.val (B.ids.val e) := hg 1 (by omega)
  have g2 : g.val (5 * j + 2) = -T.elen.val (B.ids.val e) / T.area.val (T.leftOf (B.ids.val e)) := hg 2 (by omega)
  have x0 := gather_strided (u := u) hjN hR.len
  have x1 := gather_offsets (nd := 3 + nt) (u := u) (v := none) hjN hq.ql_len q1 (show _ ≤ u.len by omega)
  have x4 := gather_offsets (nd := 3 + nt) (u := u) (v := some B.values) hjN hq.qr_len hqr (show _ ≤ B.values.len by omega)
  unfold COp.point boundaryT tbInputs
  cases ht : B.type with
  | dirichlet =>
    refine ⟨fun k => (bEdgeFT sv P nt T B u e).map fun F => F k, ⟨fun _ => rfl, fun h => absurd (ht.symm.trans h) nofun⟩, ?_⟩
    dsimp only
    unfold gatherAll
    rw [x0]
    unfold gatherAll
    rw [x1]
    unfold gatherAll
    rw [x4]
    unfold gatherAll
    show tracerBKernel sv P nt mem .dirichlet dt [fun k => g.val (5 * j + k), fun k => u.val ((3 + nt) * T.leftOf (B.ids.val e) + k),
      fun k => B.values.val ((3 + nt) * e + k)] = _
    unfold tracerBKernel
    dsimp only
    rw [if_pos ⟨hn, hw ht e hmem⟩]
    unfold bEdgeFT bEdgeAT bOtherT TBnd.cond tbWeight
    rw [ht]
    simp only [g0, g1, g2, tStateOf_at]
  | reflecting =>
    refine ⟨mem dt [fun k => g.val (5 * j + k), fun k => u.val ((3 + nt) * T.leftOf (B.ids.val e) + k)],
      ⟨fun h => absurd (ht.symm.trans h) nofun, fun _ => ⟨_, rfl⟩⟩, ?_⟩
    dsimp only
    unfold gatherAll
    rw [x0]
    unfold gatherAll
    rw [x1]
    unfold gatherAll
    show tracerBKernel sv P nt mem .reflecting dt [fun k => g.val (5 * j + k), fun k => u.val ((3 + nt) * T.leftOf (B.ids.val e) + k)] = _
    unfold tracerBKernel
    dsimp only
    rw [if_pos hn]
    unfold bEdgeFT bEdgeAT bOtherT TBnd.cond tbWeight
    rw [ht]
    simp only [g0, g1, g2, tStateOf_at]

/-- what edge number `e` of a boundary adds to component `k` of place `c` -/
noncomputable def bEdgeAddT (sv : TSolver) (P : FlowParams) (nt : ℕ) (T : CTables) (B : TBnd) (u : Arr ℝ) (c k : ℕ) (s : Num) (e : ℕ) : Num :=
  s.add (recv true (T.l2o.val (T.leftOf (B.ids.val e))) c
    (Num.scale ((bEdgeFT sv P nt T B u e).map fun F => F k) (tbWeight T B e)))

theorem boundary_applyT (sv : TSolver) (P : FlowParams) (mem : Mem) (hn : nt ≤ maxSedimentClasses) (hT : T.Valid nc n ne nv) {B : TBnd}
    (hB : B.Valid ne nt) {g : Arr ℝ} {o : Offsets} (hR : BoundaryReadyT nt T B g o) {u : Arr ℝ} (hu : u.len = (3 + nt) * nc)
    (hw : B.Wet P nt T u) {fl cn rhs : Arr Num} (hf : fl.len = (3 + nt) * B.ids.len) (hc : cn.len = 1 * B.ids.len)
    (hr : rhs.len = (3 + nt) * nc) (dt : ℝ) :
    ∃ fl' cn' rhs', (boundaryT sv P nt mem B (T.owned' B.ids B.ids.len).length g o fl cn).applyAdd dt u rhs =
        some (boundaryT sv P nt mem B (T.owned' B.ids B.ids.len).length g o fl' cn', rhs') ∧ fl'.len = fl.len ∧ cn'.len = cn.len ∧
      rhs'.len = rhs.len ∧
      (∀ c k, k < 3 + nt → rhs'.val ((3 + nt) * c + k) =
        (T.owned' B.ids B.ids.len).foldl (bEdgeAddT sv P nt T B u c k) (rhs.val ((3 + nt) * c + k))) ∧
      (∀ j < (T.owned' B.ids B.ids.len).length, ∃ x, BWrites sv P nt mem T B u dt ((T.owned' B.ids B.ids.len).getD j 0) x ∧
        ∀ k < 3 + nt, fl'.val ((3 + nt) * j + k) = (fl.val ((3 + nt) * j + k)).add (x k)) ∧
      (∀ j < (T.owned' B.ids B.ids.len).length, cn'.val j = (cn.val j).add
        ((bEdgeAT P nt T B u ((T.owned' B.ids B.ids.len).getD j 0)).map fun a =>
          -a * tbWeight T B ((T.owned' B.ids B.ids.len).getD j 0) * dt)) := by
  choose! X hX1 hX2 using fun j (hj : j < (T.owned' B.ids B.ids.len).length) =>
    boundary_pointT sv P mem hn hT hB hR hu hw fl cn dt hj
  obtain ⟨E, hE1, hE2⟩ := points_some (op := boundaryT sv P nt mem B (T.owned' B.ids B.ids.len).length g o fl cn) (dt := dt) (u := u)
    (E := fun j => [fun k => Num.scale ((bEdgeFT sv P nt T B u ((T.owned' B.ids B.ids.len).getD j 0)).map fun F => F k)
          (tbWeight T B ((T.owned' B.ids B.ids.len).getD j 0)), X j,
        fun _ => (bEdgeAT P nt T B u ((T.owned' B.ids B.ids.len).getD j 0)).map fun a =>
          -a * tbWeight T B ((T.owned' B.ids B.ids.len).getD j 0) * dt])
    (fun j hj => hX2 j hj)
  replace hE2 : ∀ j < (T.owned' B.ids B.ids.len).length, E j = [fun k => Num.scale ((bEdgeFT sv P nt T B u ((T.owned' B.ids B.ids.len).getD j 0)).map fun F => F k)
          (tbWeight T B ((T.owned' B.ids B.ids.len).getD j 0)), X j,
        fun _ => (bEdgeAT P nt T B u ((T.owned' B.ids B.ids.len).getD j 0)).map fun a =>
          -a * tbWeight T B ((T.owned' B.ids B.ids.len).getD j 0) * dt] := hE2
  have hq := hR.set
  have hle := owned'_len_self T B.ids B.ids.len
  obtain ⟨r1, a1, a2, a3⟩ := addAll_spec (o := ⟨.offsets o.cl, 3 + nt, none⟩) (elems := (T.owned' B.ids B.ids.len).length) (f := 0)
    (n := nc) (E := E) (fun j => T.l2o.val (T.leftOf (B.ids.val ((T.owned' B.ids B.ids.len).getD j 0))))
    (fun j k => Num.scale ((bEdgeFT sv P nt T B u ((T.owned' B.ids B.ids.len).getD j 0)).map fun F => F k)
      (tbWeight T B ((T.owned' B.ids B.ids.len).getD j 0)))
    (a := rhs) (fun j hj => base_offsets (hj.trans_le hle) hq.cl_len (hq.cl j hj))
    (fun j hj => hT.l2o_lt _ (hT.left_lt (hB.ids _ (owned'_mem (getD_mem' hj)).1))) (fun j hj k => by rw [hE2 j hj]; rfl) hr
  obtain ⟨f1, c1, c2, c3⟩ := addAll_spec (o := ⟨.strided (3 + nt), 3 + nt, some fl⟩) (elems := (T.owned' B.ids B.ids.len).length) (f := 1)
    (n := B.ids.len) (E := E) (fun j => j) X
    (a := fl) (fun j hj => rfl) (fun j hj => hj.trans_le hle) (fun j hj k => by rw [hE2 j hj]; rfl) hf
  obtain ⟨n1, d1, d2, d3⟩ := addAll_spec (o := ⟨.strided 1, 1, some cn⟩) (elems := (T.owned' B.ids B.ids.len).length) (f := 2)
    (n := B.ids.len) (E := E) (fun j => j)
    (fun j _ => (bEdgeAT P nt T B u ((T.owned' B.ids B.ids.len).getD j 0)).map fun a =>
          -a * tbWeight T B ((T.owned' B.ids B.ids.len).getD j 0) * dt)
    (a := cn) (fun j hj => rfl) (fun j hj => hj.trans_le hle) (fun j hj k => by rw [hE2 j hj]; rfl) hc
  refine ⟨f1, n1, r1, ?_, c2, d2, a2, ?_, ?_, ?_⟩
  · unfold COp.applyAdd
    rw [hE1]
    show Option.map _ (addOutputs (T.owned' B.ids B.ids.len).length E 0 _ rhs) = _
    unfold boundaryT addOutputs
    dsimp only
    rw [a1]
    unfold addOutputs
    dsimp only [Option.bind]
    rw [c1]
    unfold addOutputs
    dsimp only [Option.bind]
    rw [d1]
    rfl
  · intro c k hk
    have h2 := a3 c k hk
    dsimp only at h2
    rw [h2]
    exact foldl_range_getD (bEdgeAddT sv P nt T B u c k) _ _
  · intro j hj
    refine ⟨X j, hX1 j hj, fun k hk => ?_⟩
    have h1 := c3 j k hk
    dsimp only at h1
    rw [h1]
    refine (foldl_own _ _ _ _).trans ?_
    rw [if_pos hj]
  · intro j hj
    have h1 := d3 j 0 (by norm_num)
    dsimp only at h1
    rw [Nat.one_mul, Nat.add_zero] at h1
    rw [h1]
    refine (foldl_own _ _ _ _).trans ?_
    rw [if_pos hj]

/-! ### All operators -/

/-- The operator of boundary `B`. -/
def BOpReadyT (sv : TSolver) (P : FlowParams) (nt : ℕ) (mem : Mem) (T : CTables) (B : TBnd) (op : COp) : Prop :=
  ∃ g o fl cn, BoundaryReadyT nt T B g o ∧ fl.len = (3 + nt) * B.ids.len ∧ cn.len = 1 * B.ids.len ∧
    op = boundaryT sv P nt mem B (T.owned' B.ids B.ids.len).length g o fl cn

/-- The composite operator. -/
def OpsReadyT (sv : TSolver) (P : FlowParams) (nt : ℕ) (mem : Mem) (T : CTables) (Bs : List TBnd) (ops : List COp) : Prop :=
  ∃ g o fl cn bops, InteriorReadyT nt T g o ∧ fl.len = (3 + nt) * T.numOwnedInternal ∧ cn.len = 2 * T.numOwnedInternal ∧
    ops = interiorT sv P nt T.numOwnedInternal g o fl cn :: bops ∧ List.Forall₂ (BOpReadyT sv P nt mem T) Bs bops

/-- what the edges of all boundaries add -/
noncomputable def boundariesAddT (sv : TSolver) (P : FlowParams) (nt : ℕ) (T : CTables) (u : Arr ℝ) (c k : ℕ) (s : Num) (Bs : List TBnd) : Num :=
  Bs.foldl (fun (s : Num) (B : TBnd) => (T.owned' B.ids B.ids.len).foldl (bEdgeAddT sv P nt T B u c k) s) s

/-- What an evaluation does to the vectors of the operator of boundary `B`. -/
def BStepT (sv : TSolver) (P : FlowParams) (nt : ℕ) (mem : Mem) (T : CTables) (u : Arr ℝ) (dt : ℝ) (B : TBnd) (op op' : COp) : Prop :=
  ∃ fl cn fl' cn', op.fluxVec = some fl ∧ op'.fluxVec = some fl' ∧ op.outVec 2 = some cn ∧ op'.outVec 2 = some cn' ∧
    (∀ j < (T.owned' B.ids B.ids.len).length, ∃ x, BWrites sv P nt mem T B u dt ((T.owned' B.ids B.ids.len).getD j 0) x ∧
      ∀ k < 3 + nt, fl'.val ((3 + nt) * j + k) = (fl.val ((3 + nt) * j + k)).add (x k)) ∧
    (∀ j < (T.owned' B.ids B.ids.len).length, cn'.val j = (cn.val j).add
      ((bEdgeAT P nt T B u ((T.owned' B.ids B.ids.len).getD j 0)).map fun a =>
        -a * tbWeight T B ((T.owned' B.ids B.ids.len).getD j 0) * dt))

theorem boundaries_applyT (sv : TSolver) (P : FlowParams) (mem : Mem) (hn : nt ≤ maxSedimentClasses) (hT : T.Valid nc n ne nv) {u : Arr ℝ}
    (hu : u.len = (3 + nt) * nc) (dt : ℝ) {Bs : List TBnd} {ops : List COp} (h : List.Forall₂ (BOpReadyT sv P nt mem T) Bs ops) :
    (∀ B ∈ Bs, B.Valid ne nt) → (∀ B ∈ Bs, B.Wet P nt T u) → ∀ {rhs : Arr Num}, rhs.len = (3 + nt) * nc →
    ∃ ops' rhs', compositeAdd dt u ops rhs = some (ops', rhs') ∧ List.Forall₂ (BOpReadyT sv P nt mem T) Bs ops' ∧
      rhs'.len = (3 + nt) * nc ∧
      (∀ c k, k < 3 + nt → rhs'.val ((3 + nt) * c + k) = boundariesAddT sv P nt T u c k (rhs.val ((3 + nt) * c + k)) Bs) ∧
      ∀ (b : ℕ) (B : TBnd), Bs[b]? = some B → ∃ op op', ops[b]? = some op ∧ ops'[b]? = some op' ∧ BStepT sv P nt mem T u dt B op op' := by
  induction h with
  | nil => intro _ _ rhs hr; exact ⟨[], rhs, rfl, .nil, hr, fun c k _ => rfl, fun b B hb => by simp at hb⟩
  | @cons B op Bs ops h1 h2 ih =>
    intro hB hW rhs hr
    obtain ⟨g, o, fl, cn, hR, hf, hc, rfl⟩ := h1
    obtain ⟨fl', cn', r1, e1, e2, e3, e4, e5, e6, e7⟩ := boundary_applyT sv P mem hn hT (hB B List.mem_cons_self) hR hu
      (hW B List.mem_cons_self) hf hc hr dt
    obtain ⟨ops', r2, i1, i2, i3, i4, i5⟩ := ih (fun B' h' => hB B' (List.mem_cons_of_mem _ h'))
      (fun B' h' => hW B' (List.mem_cons_of_mem _ h')) (e4.trans hr)
    refine ⟨_ :: ops', r2, ?_, .cons ⟨g, o, fl', cn', hR, e2.trans hf, e3.trans hc, rfl⟩ i2, i3, ?_, ?_⟩
    · unfold compositeAdd
      rw [e1]
      show Option.map _ (compositeAdd dt u ops r1) = _
      rw [i1]
      rfl
    · intro c k hk
      rw [i4 c k hk, e5 c k hk]
      rfl
    · intro b B' hb
      cases b with
      | zero =>
        obtain rfl : B = B' := by simpa using hb
        exact ⟨_, _, rfl, rfl, fl, cn, fl', cn', rfl, rfl, rfl, rfl, e6, e7⟩
      | succ b => exact i5 b B' (by simpa using hb)

theorem evaluation_specT (sv : TSolver) (P : FlowParams) (mem : Mem) (hn : nt ≤ maxSedimentClasses) (hT : T.Valid nc n ne nv) {u : Arr ℝ}
    (hu : u.len = (3 + nt) * nc) (dt : ℝ) {Bs : List TBnd} {ops : List COp} (hB : ∀ B ∈ Bs, B.Valid ne nt)
    (hW : ∀ B ∈ Bs, B.Wet P nt T u) (h : OpsReadyT sv P nt mem T Bs ops) :
    ∃ ops' rhs', fluxEvaluationT nt nc dt u ops = some (ops', rhs') ∧ OpsReadyT sv P nt mem T Bs ops' ∧
      rhs'.len = (3 + nt) * nc ∧ (∀ c k, k < 3 + nt → rhs'.val ((3 + nt) * c + k) = boundariesAddT sv P nt T u c k
        ((T.owned' T.internal T.internal.len).foldl (edgeAddT sv P nt T u c k) (some 0)) Bs) ∧
      (∃ cn cn', ops[0]?.bind (fun op => op.outVec 3) = some cn ∧ ops'[0]?.bind (fun op => op.outVec 3) = some cn' ∧
        ∀ j < T.numOwnedInternal, ∀ k < 2, cn'.val (2 * j + k) = (cn.val (2 * j + k)).add
          (edgeCourantT P nt T u dt (T.internal.val ((T.owned' T.internal T.internal.len).getD j 0)) k)) ∧
      ∀ (b : ℕ) (B : TBnd), Bs[b]? = some B → ∃ op op', ops[b + 1]? = some op ∧ ops'[b + 1]? = some op' ∧ BStepT sv P nt mem T u dt B op op' := by
  obtain ⟨g, o, fl, cn, bops, hR, hf, hc, rfl, hb⟩ := h
  obtain ⟨fl', cn', r1, e1, e2, e3, e4, e5, e6⟩ := interior_applyT sv P hn hT hR hu hf hc
    (rhs := Arr.calloc ((3 + nt) * nc) (some 0)) rfl dt
  obtain ⟨ops', r2, i1, i2, i3, i4, i5⟩ := boundaries_applyT sv P mem hn hT hu dt hb hB hW e4
  refine ⟨_ :: ops', r2, ?_, ⟨g, o, fl', cn', ops', hR, e2.trans hf, e3.trans hc, rfl, i2⟩, i3, ?_, ⟨cn, cn', rfl, rfl, e6⟩, i5⟩
  · unfold fluxEvaluationT compositeAdd
    rw [e1]
    show Option.map _ (compositeAdd dt u bops r1) = _
    rw [i1]
    rfl
  · intro c k hk
    rw [i4 c k hk, e5 c k hk]
    rfl

/-- The vector of fluxes of an operator as created: zeros. -/
def FreshT (nt : ℕ) (B : TBnd) (op : COp) : Prop :=
  op.fluxVec = some (Arr.calloc ((3 + nt) * B.ids.len) (some 0)) ∧ op.outVec 2 = some (Arr.calloc (1 * B.ids.len) (some 0))

theorem createBoundariesT_spec (sv : TSolver) (P : FlowParams) (mem : Mem) (hT : T.Valid nc n ne nv) : ∀ Bs : List TBnd,
    (∀ B ∈ Bs, B.Valid ne nt) →
    ∃ ops, createBoundariesT sv P nt mem T Bs = some ops ∧ List.Forall₂ (BOpReadyT sv P nt mem T) Bs ops ∧
      List.Forall₂ (FreshT nt) Bs ops := by
  intro Bs
  induction Bs with
  | nil => intro _; exact ⟨[], rfl, .nil, .nil⟩
  | cons B Bs ih =>
    intro hB
    obtain ⟨g, o, h1, h2⟩ := createBoundaryT_spec sv P mem hT (hB B List.mem_cons_self)
    obtain ⟨ops, h3, h4, h5⟩ := ih fun B' h' => hB B' (List.mem_cons_of_mem _ h')
    refine ⟨_ :: ops, ?_, .cons ⟨g, o, Arr.calloc ((3 + nt) * B.ids.len) (some 0), Arr.calloc (1 * B.ids.len) (some 0), h1, rfl, rfl,
      rfl⟩ h4, .cons ⟨rfl, rfl⟩ h5⟩
    unfold createBoundariesT
    rw [h2]
    show Option.map _ (createBoundariesT sv P nt mem T Bs) = _
    rw [h3]
    rfl

theorem createFluxT_spec (sv : TSolver) (P : FlowParams) (mem : Mem) (hT : T.Valid nc n ne nv) {Bs : List TBnd}
    (hB : ∀ B ∈ Bs, B.Valid ne nt) :
    ∃ ops, createFluxT sv P nt mem T Bs = some ops ∧ OpsReadyT sv P nt mem T Bs ops ∧ List.Forall₂ (FreshT nt) Bs ops.tail := by
  obtain ⟨g, o, h1, h2⟩ := createInteriorT_spec sv P nt hT
  obtain ⟨bops, h3, h4, h5⟩ := createBoundariesT_spec sv P mem hT Bs hB
  refine ⟨_ :: bops, ?_, ⟨g, o, Arr.calloc ((3 + nt) * T.numOwnedInternal) (some 0), Arr.calloc (2 * T.numOwnedInternal) (some 0), bops, h1,
    rfl, rfl, rfl, h4⟩, h5⟩
  unfold createFluxT
  rw [h2]
  show Option.map _ (createBoundariesT sv P nt mem T Bs) = _
  rw [h3]
  rfl

theorem evaluations_specT (sv : TSolver) (P : FlowParams) (mem : Mem) (hn : nt ≤ maxSedimentClasses) (hT : T.Valid nc n ne nv)
    {Bs : List TBnd} (hB : ∀ B ∈ Bs, B.Valid ne nt) : ∀ (l : List (ℝ × Arr ℝ)) (ops : List COp), (∀ s ∈ l, s.2.len = (3 + nt) * nc) →
    (∀ s ∈ l, ∀ B ∈ Bs, B.Wet P nt T s.2) → OpsReadyT sv P nt mem T Bs ops →
    ∃ ops', fluxEvaluationsT nt nc l ops = some ops' ∧ OpsReadyT sv P nt mem T Bs ops' := by
  intro l
  induction l with
  | nil => intro ops _ _ h; exact ⟨ops, rfl, h⟩
  | cons s l ih =>
    intro ops hl hw h
    obtain ⟨ops1, r, e1, e2, -⟩ := evaluation_specT sv P mem hn hT (hl s List.mem_cons_self) s.1 hB (hw s List.mem_cons_self) h
    obtain ⟨ops2, i1, i2⟩ := ih ops1 (fun s' h' => hl s' (List.mem_cons_of_mem _ h')) (fun s' h' => hw s' (List.mem_cons_of_mem _ h')) e2
    refine ⟨ops2, ?_, i2⟩
    obtain ⟨dt, u⟩ := s
    show (fluxEvaluationT nt nc dt u ops).bind _ = _
    rw [e1]
    exact i1

/-! ### The model that treats edges one by one -/

/-- The boundary edges that the process owns. -/
noncomputable def tBndOf (nt : ℕ) (T : CTables) (Bs : List TBnd) : List TBEdge :=
  Bs.flatMap fun B => (T.owned' B.ids B.ids.len).map fun e =>
    ⟨T.leftOf (B.ids.val e), T.elen.val (B.ids.val e), T.sn.val (B.ids.val e), T.cn.val (B.ids.val e), B.cond nt e⟩

theorem addAtT_num (f : ℕ → ℕ → ℝ) (i : ℕ) (F : ℕ → ℝ) (s : ℝ) (c k : ℕ) :
    some (addAtT f i F s c k) = Num.add (some (f c k)) (recv true i c (Num.scale (some (F k)) s)) := by
  unfold addAtT recv
  by_cases h : c = i
  · rw [if_pos h, if_pos ⟨rfl, h.symm⟩]; rfl
  · rw [if_neg h, if_neg (fun q => h q.2.symm), Num.add_zero']

theorem internal_entryT (sv : TSolver) (P : FlowParams) (nt : ℕ) (T : CTables) (nc : ℕ) (u : Arr ℝ) (o i : ℕ) :
    ∀ (l : List ℕ) (f g : ℕ → ℕ → ℝ), (∀ e ∈ l, T.cellIds.val (2 * T.internal.val e + 1) ≠ -1) →
      (l.map fun e => (⟨T.leftOf (T.internal.val e), T.rightOf (T.internal.val e), T.elen.val (T.internal.val e),
        T.sn.val (T.internal.val e), T.cn.val (T.internal.val e)⟩ : IEdge)).foldlM
          (ceedTEdge sv P nt (ceedMeshOf T [] nc) (tStateAt nt u)) f = some g →
      l.foldl (edgeAddT sv P nt T u o i) (some (f o i)) = some (g o i) := by
  intro l
  induction l with
  | nil => intro f g _ h; cases h; rfl
  | cons e l ih =>
    intro f g hl h
    obtain ⟨f', h1, h2⟩ := foldlM_cons_some h
    rw [List.foldl_cons, ← ih f' g (fun e' h' => hl e' (List.mem_cons_of_mem _ h')) h2]
    congr 1
    unfold ceedTEdge at h1
    dsimp only at h1
    rw [rightOf_some (hl e List.mem_cons_self)] at h1
    dsimp only at h1
    obtain ⟨F, hF, hf'⟩ := Option.map_eq_some_iff.mp h1
    have hE : edgeFT sv P nt T u (T.internal.val e) = some F := hF
    unfold edgeAddT
    rw [hE, ← hf', addAtT_num, addAtT_num]
    rfl

theorem boundary_entryT (sv : TSolver) (P : FlowParams) (nt : ℕ) (T : CTables) (B : TBnd) (nc : ℕ) (u : Arr ℝ)
    (o i : ℕ) : ∀ (l : List ℕ) (f g : ℕ → ℕ → ℝ),
      (l.map fun e => (⟨T.leftOf (B.ids.val e), T.elen.val (B.ids.val e), T.sn.val (B.ids.val e), T.cn.val (B.ids.val e),
        B.cond nt e⟩ : TBEdge)).foldlM (ceedTBEdge sv P nt (ceedMeshOf T [] nc) (tStateAt nt u)) f = some g →
      l.foldl (bEdgeAddT sv P nt T B u o i) (some (f o i)) = some (g o i) := by
  intro l
  induction l with
  | nil => intro f g h; cases h; rfl
  | cons e l ih =>
    intro f g h
    obtain ⟨f', h1, h2⟩ := foldlM_cons_some h
    rw [List.foldl_cons, ← ih f' g h2]
    congr 1
    unfold ceedTBEdge at h1
    dsimp only at h1
    obtain ⟨F, hF, hf'⟩ := Option.map_eq_some_iff.mp h1
    have hE : bEdgeFT sv P nt T B u e = some F := hF
    unfold bEdgeAddT
    rw [hE, ← hf', addAtT_num]
    rfl

theorem boundaries_entryT (sv : TSolver) (P : FlowParams) (nt : ℕ) (T : CTables) (nc : ℕ) (u : Arr ℝ)
    (o i : ℕ) : ∀ (Bs : List TBnd) (f g : ℕ → ℕ → ℝ),
      (tBndOf nt T Bs).foldlM (ceedTBEdge sv P nt (ceedMeshOf T [] nc) (tStateAt nt u)) f = some g →
      boundariesAddT sv P nt T u o i (some (f o i)) Bs = some (g o i) := by
  intro Bs
  induction Bs with
  | nil => intro f g h; cases h; rfl
  | cons B Bs ih =>
    intro f g h
    unfold tBndOf at h
    rw [List.flatMap_cons] at h
    obtain ⟨f', h1, h2⟩ := foldlM_append_some h
    unfold boundariesAddT
    rw [List.foldl_cons, boundary_entryT sv P nt T B nc u o i _ f f' h1]
    exact ih f' g h2

/-- the result of an evaluation in terms of the model that treats edges one by one -/
theorem divergence_entryT (sv : TSolver) (P : FlowParams) (hT : T.Valid nc n ne nv) (Bs : List TBnd) {u : Arr ℝ}
    {f : ℕ → ℕ → ℝ} (h : ceedTDiv false sv P nt (ceedMeshOf T [] nc) (tBndOf nt T Bs) (tStateAt nt u) = some f) (c k : ℕ) :
    boundariesAddT sv P nt T u c k ((T.owned' T.internal T.internal.len).foldl (edgeAddT sv P nt T u c k) (some 0)) Bs = some (f c k) := by
  unfold ceedTDiv at h
  obtain ⟨f1, h1, h2⟩ := Option.bind_eq_some_iff.mp h
  have h3 := internal_entryT sv P nt T nc u c k _ _ f1 (fun e he => hT.two e (owned'_mem he).1 (owned'_mem he).2) h1
  rw [h3]
  exact boundaries_entryT sv P nt T nc u c k Bs f1 f h2

/-! ### Evaluations that are not defined -/

theorem applyAdd_none {op : COp} {dt : ℝ} {u : Arr ℝ} {j : ℕ} (hj : j < op.elems) (h : op.point dt u j = none) (rhs : Arr Num) :
    op.applyAdd dt u rhs = none := by
  unfold COp.applyAdd COp.points
  rw [if_neg fun q => by have := q j hj; rw [h] at this; cases this]
  rfl

theorem compositeAdd_none {op : COp} {dt : ℝ} {u : Arr ℝ} {j : ℕ} (hj : j < op.elems) (h : op.point dt u j = none) :
    ∀ (ops : List COp) (rhs : Arr Num), op ∈ ops → compositeAdd dt u ops rhs = none := by
  intro ops
  induction ops with
  | nil => intro rhs hm; cases hm
  | cons op' ops ih =>
    intro rhs hm
    unfold compositeAdd
    rcases List.mem_cons.mp hm with rfl | hm
    · rw [applyAdd_none hj h]; rfl
    · cases op'.applyAdd dt u rhs with
      | none => rfl
      | some r =>
        show Option.map _ (compositeAdd dt u ops r.2) = none
        rw [ih r.2 hm]
        rfl

theorem interior_point_many (sv : TSolver) (P : FlowParams) (hn : ¬ nt ≤ maxSedimentClasses) {g : Arr ℝ} {o : Offsets}
    (u : Arr ℝ) (N : ℕ) (fl cn : Arr Num) (dt : ℝ) (j : ℕ) : (interiorT sv P nt N g o fl cn).point dt u j = none := by
  unfold COp.point
  cases hg : gatherAll u j (interiorT sv P nt N g o fl cn).ins with
  | none => rfl
  | some l =>
    show tracerKernel sv P nt dt l = none
    unfold tracerKernel
    split
    · exact if_neg hn
    · rfl

theorem boundary_point_dry (sv : TSolver) (P : FlowParams) (mem : Mem) (hT : T.Valid nc n ne nv) {B : TBnd}
    (hB : B.Valid ne nt) {g : Arr ℝ} {o : Offsets} (hR : BoundaryReadyT nt T B g o) {u : Arr ℝ} (hu : u.len = (3 + nt) * nc)
    (ht : B.type = .dirichlet) (fl cn : Arr Num) (dt : ℝ) {j : ℕ} (hj : j < (T.owned' B.ids B.ids.len).length)
    (h1 : (tStateAt nt u (T.leftOf (B.ids.val ((T.owned' B.ids B.ids.len).getD j 0)))).q.h ≤ P.tinyH)
    (h2 : (tStateAt nt B.values ((T.owned' B.ids B.ids.len).getD j 0)).q.h ≤ P.tinyH) :
    (boundaryT sv P nt mem B (T.owned' B.ids B.ids.len).length g o fl cn).point dt u j = none := by
  have hm := owned'_mem (getD_mem' hj)
  have hid := hB.ids _ hm.1
  have hL := flat_le (D := 3 + nt) (hT.left_lt hid)
  have hjN : j < B.ids.len := hj.trans_le (owned'_len_self T B.ids B.ids.len)
  have hq := hR.set
  have hqr := hR.qr j hj
  have q1 := hq.ql j hj
  have hval := hB.values
  have hv := flat_le (D := 3 + nt) hm.1
  generalize (T.owned' B.ids B.ids.len).getD j 0 = e at *
  have x0 := gather_strided (u := u) hjN hR.len
  have x1 := gather_offsets (nd := 3 + nt) (u := u) (v := none) hjN hq.ql_len q1 (show _ ≤ u.len by omega)
  have x4 := gather_offsets (nd := 3 + nt) (u := u) (v := some B.values) hjN hq.qr_len hqr (show _ ≤ B.values.len by omega)
  unfold COp.point boundaryT tbInputs
  rw [ht]
  dsimp only
  unfold gatherAll
  rw [x0]
  unfold gatherAll
  rw [x1]
  unfold gatherAll
  rw [x4]
  unfold gatherAll
  show tracerBKernel sv P nt mem .dirichlet dt [fun k => g.val (5 * j + k), fun k => u.val ((3 + nt) * T.leftOf (B.ids.val e) + k),
    fun k => B.values.val ((3 + nt) * e + k)] = _
  unfold tracerBKernel
  dsimp only
  refine if_neg fun q => ?_
  rcases q.2 with q | q
  · exact absurd q (not_lt.mpr h1)
  · exact absurd q (not_lt.mpr h2)

theorem evaluations_append (nt nc : ℕ) : ∀ (l : List (ℝ × Arr ℝ)) (s : ℝ × Arr ℝ) (ops : List COp),
    fluxEvaluationsT nt nc (l ++ [s]) ops =
      (fluxEvaluationsT nt nc l ops).bind fun o => (fluxEvaluationT nt nc s.1 s.2 o).map fun r => r.1 := by
  intro l
  induction l with
  | nil =>
    intro s ops
    obtain ⟨dt, u⟩ := s
    show (fluxEvaluationT nt nc dt u ops).bind _ = (fluxEvaluationT nt nc dt u ops).map _
    cases fluxEvaluationT nt nc dt u ops <;> rfl
  | cons a l ih =>
    intro s ops
    obtain ⟨dt, u⟩ := a
    show (fluxEvaluationT nt nc dt u ops).bind (fun r => fluxEvaluationsT nt nc (l ++ [s]) r.1) =
      ((fluxEvaluationT nt nc dt u ops).bind fun r => fluxEvaluationsT nt nc l r.1).bind _
    cases fluxEvaluationT nt nc dt u ops with
    | none => rfl
    | some r => exact ih s r.1

end RDy
