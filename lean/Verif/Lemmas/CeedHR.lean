import Verif.Model.CeedHR
import Verif.Lemmas.CeedOpRun
import Verif.Lemmas.PetscRhs
import Mathlib.Tactic

/-! Lemmas about the assembled flux operators of the CEED backend with hydrostatic reconstruction. -/

namespace RDy

variable {T : CTables} {V : BedTables} {nc n ne nv : ℕ}

theorem cellBed_some (hV : V.Valid nc) {c : ℕ} (hc : c < nc) : cellBed V c = some (V.zcOf c) := by
  unfold cellBed BedTables.zcOf
  by_cases hf : V.fromFile = true
  · rw [if_pos hf, if_pos hf, Arr.get_some (by rw [hV.centroidZ]; exact hc)]
  · have hw := hV.width c hc
    have hd : V.offsets.val (c + 1) - V.offsets.val c = V.count.val c := by omega
    rw [if_neg hf, if_neg hf, Arr.get_some (show c < V.offsets.len by rw [hV.offsets]; omega)]
    show (V.offsets.get (c + 1)).bind _ = _
    rw [Arr.get_some (by rw [hV.offsets]; omega)]
    show (loopM (zSumStep V _) (V.offsets.val (c + 1) - V.offsets.val c) 0).bind _ = _
    rw [hd, zSum_spec V _ _ (fun j hj => by have := hV.ids c hc; omega) hV.z]
    show (V.count.get c).bind _ = _
    rw [Arr.get_some (by rw [hV.count]; exact hc)]
    exact if_neg (by have := hV.pos c hc; omega)

/-- the geometric factors of an internal edge -/
noncomputable def hrGeom (T : CTables) (V : BedTables) (id k : ℕ) : ℝ :=
  if k = 0 then T.sn.val id else if k = 1 then T.cn.val id
  else if k = 2 then -T.elen.val id / T.area.val (T.leftOf id) else if k = 3 then T.elen.val id / T.area.val (T.R id)
  else if k = 4 then V.zcOf (T.leftOf id) else V.zcOf (T.R id)

theorem hrGeomBody_spec (hT : T.Valid nc n ne nv) (hV : V.Valid nc) {g : Arr ℝ} {i e id N : ℕ} (hi : i < N) (hl : g.len = 6 * N)
    (hid : id < ne) (h2 : T.cellIds.val (2 * id + 1) ≠ -1) :
    ∃ g', hrGeomBody T V g i e id = some g' ∧ g'.len = g.len ∧
      ∀ o k, k < 6 → g'.val (6 * o + k) = if o = i then hrGeom T V id k else g.val (6 * o + k) := by
  have hb := hT.base
  unfold hrGeomBody
  rw [Arr.get_some (show 2 * id < T.cellIds.len by rw [hb.cellIds]; omega)]
  show ∃ g', (T.cellIds.get (2 * id + 1)).bind _ = some g' ∧ _
  rw [Arr.get_some (show 2 * id + 1 < T.cellIds.len by rw [hb.cellIds]; omega)]
  show ∃ g', (asIndex (T.cellIds.val (2 * id))).bind _ = some g' ∧ _
  rw [asIndex_some (hb.left id hid).1]
  show ∃ g', (asIndex (T.cellIds.val (2 * id + 1))).bind _ = some g' ∧ _
  rw [asIndex_some (hT.right_lt hid h2).1]
  show ∃ g', (T.sn.get id).bind _ = some g' ∧ _
  rw [Arr.get_some (show id < T.sn.len by rw [hb.sn]; exact hid)]
  show ∃ g', (T.cn.get id).bind _ = some g' ∧ _
  rw [Arr.get_some (show id < T.cn.len by rw [hb.cn]; exact hid)]
  show ∃ g', (T.elen.get id).bind _ = some g' ∧ _
  rw [Arr.get_some (show id < T.elen.len by rw [hb.elen]; exact hid)]
  show ∃ g', (T.area.get (T.leftOf id)).bind _ = some g' ∧ _
  rw [Arr.get_some (show T.leftOf id < T.area.len by rw [hb.area]; exact hT.left_lt hid)]
  show ∃ g', (T.area.get (T.R id)).bind _ = some g' ∧ _
  rw [Arr.get_some (show T.R id < T.area.len by rw [hb.area]; exact (hT.right_lt hid h2).2)]
  show ∃ g', (cellBed V (T.leftOf id)).bind _ = some g' ∧ _
  rw [cellBed_some hV (hT.left_lt hid)]
  show ∃ g', (cellBed V (T.R id)).bind _ = some g' ∧ _
  rw [cellBed_some hV (hT.right_lt hid h2).2]
  exact putRow_spec (hrGeom T V id) hi hl

/-- The arrays of offsets have `N` entries and those of the first edges `l` are set. -/
structure HROffsets.Set (o : HROffsets) (T : CTables) (N : ℕ) (l : List ℕ) : Prop where
  ql_len : o.ql.len = N
  qr_len : o.qr.len = N
  cl_len : o.cl.len = N
  cr_len : o.cr.len = N
  ql : ∀ j < l.length, o.ql.val j = some (3 * T.leftOf (T.internal.val (l.getD j 0)))
  qr : ∀ j < l.length, o.qr.val j = some (3 * T.R (T.internal.val (l.getD j 0)))
  cl : ∀ j < l.length, o.cl.val j = some (3 * T.l2o.val (T.leftOf (T.internal.val (l.getD j 0))))
  cr : ∀ j < l.length, o.cr.val j = some (3 * T.l2o.val (T.R (T.internal.val (l.getD j 0))))

theorem hrOffsetBody_spec (hT : T.Valid nc n ne nv) {o : HROffsets} {l : List ℕ} {e N : ℕ} (hi : l.length < N) (ho : o.Set T N l)
    (hid : T.internal.val e < ne) (h2 : T.cellIds.val (2 * T.internal.val e + 1) ≠ -1) :
    ∃ o', hrOffsetBody T o l.length e (T.internal.val e) = some o' ∧ o'.Set T N (l ++ [e]) := by
  have hb := hT.base
  unfold hrOffsetBody
  rw [Arr.get_some (show 2 * T.internal.val e < T.cellIds.len by rw [hb.cellIds]; omega)]
  show ∃ o', (T.cellIds.get (2 * T.internal.val e + 1)).bind _ = some o' ∧ _
  rw [Arr.get_some (show 2 * T.internal.val e + 1 < T.cellIds.len by rw [hb.cellIds]; omega)]
  show ∃ o', (asIndex (T.cellIds.val (2 * T.internal.val e))).bind _ = some o' ∧ _
  rw [asIndex_some (hb.left _ hid).1]
  show ∃ o', (asIndex (T.cellIds.val (2 * T.internal.val e + 1))).bind _ = some o' ∧ _
  rw [asIndex_some (hT.right_lt hid h2).1]
  show ∃ o', (o.ql.put l.length (some (3 * T.leftOf (T.internal.val e)))).bind _ = some o' ∧ _
  rw [put_at _ hi ho.ql_len]
  show ∃ o', (o.qr.put l.length (some (3 * T.R (T.internal.val e)))).bind _ = some o' ∧ _
  rw [put_at _ hi ho.qr_len]
  show ∃ o', (T.l2o.get (T.leftOf (T.internal.val e))).bind _ = some o' ∧ _
  rw [Arr.get_some (show T.leftOf (T.internal.val e) < T.l2o.len by rw [hb.l2o]; exact hT.left_lt hid)]
  show ∃ o', (o.cl.put l.length _).bind _ = some o' ∧ _
  rw [put_at _ hi ho.cl_len]
  show ∃ o', (T.l2o.get (T.R (T.internal.val e))).bind _ = some o' ∧ _
  rw [Arr.get_some (show T.R (T.internal.val e) < T.l2o.len by rw [hb.l2o]; exact (hT.right_lt hid h2).2)]
  show ∃ o', (o.cr.put l.length _).map _ = some o' ∧ _
  rw [put_at _ hi ho.cr_len]
  refine ⟨_, rfl, ⟨ho.ql_len, ho.qr_len, ho.cl_len, ho.cr_len, ?_, ?_, ?_, ?_⟩⟩
  · exact set_concat (fun e => some (3 * T.leftOf (T.internal.val e))) ho.ql
  · exact set_concat (fun e => some (3 * T.R (T.internal.val e))) ho.qr
  · exact set_concat (fun e => some (3 * T.l2o.val (T.leftOf (T.internal.val e)))) ho.cl
  · exact set_concat (fun e => some (3 * T.l2o.val (T.R (T.internal.val e)))) ho.cr

/-- The operator of the internal edges with the vectors `fl` and `cn` of its passive outputs. -/
noncomputable def interiorHRC (P : FlowParams) (junk : Unwritten) (N : ℕ) (g : Arr ℝ) (o : HROffsets) (fl cn : Arr Num) : COp where
  elems := N
  ins := [⟨.strided 6, 6, some g⟩, ⟨.offsets o.ql, 3, none⟩, ⟨.offsets o.qr, 3, none⟩]
  outs := [⟨.offsets o.cl, 3, none⟩, ⟨.offsets o.cr, 3, none⟩, ⟨.strided 3, 3, some fl⟩, ⟨.strided 2, 2, some cn⟩]
  kernel := hrKernel P junk

/-- What the arrays of the operator of the internal edges hold. -/
structure HRReady (T : CTables) (V : BedTables) (g : Arr ℝ) (o : HROffsets) : Prop where
  len : g.len = 6 * T.numOwnedInternal
  geom : ∀ j < T.numOwnedInternal, ∀ k < 6,
    g.val (6 * j + k) = hrGeom T V (T.internal.val ((T.owned' T.internal T.internal.len).getD j 0)) k
  set : o.Set T T.numOwnedInternal (T.owned' T.internal T.internal.len)

theorem createInteriorHRC_spec (P : FlowParams) (junk : Unwritten) (hT : T.Valid nc n ne nv) (hV : V.Valid nc) :
    ∃ g o, HRReady T V g o ∧ createInteriorHRC P junk T V = some (interiorHRC P junk T.numOwnedInternal g o
      (Arr.calloc (3 * T.numOwnedInternal) (some 0)) (Arr.calloc (2 * T.numOwnedInternal) (some 0))) := by
  obtain ⟨g, hg1, hg2, hg3⟩ := ownedLoop_inv (T := T) (ids := T.internal) hT.base.ids hT.edgeOwned (body := hrGeomBody T V)
    (fun l g => g.len = 6 * T.numOwnedInternal ∧ ∀ j < l.length, ∀ k < 6, g.val (6 * j + k) = hrGeom T V (T.internal.val (l.getD j 0)) k)
    (s := Arr.calloc (6 * T.numOwnedInternal) 0) ⟨rfl, fun _ h => absurd h (Nat.not_lt_zero _)⟩ (by
      rintro l e g he hw hl ⟨h1, h2⟩
      rw [← hT.count] at hl
      obtain ⟨g', e1, e2, e3⟩ := hrGeomBody_spec hT hV (e := e) hl h1 (hT.base.ids e he) (hT.two e he hw)
      exact ⟨g', e1, e2.trans h1, rows_concat (fun e k => hrGeom T V (T.internal.val e) k) h2 e3⟩)
  obtain ⟨o, ho1, ho2⟩ := ownedLoop_inv (T := T) (ids := T.internal) hT.base.ids hT.edgeOwned (body := hrOffsetBody T)
    (fun l o => o.Set T T.numOwnedInternal l) (s := HROffsets.malloc T.numOwnedInternal)
    ⟨rfl, rfl, rfl, rfl, fun _ h => absurd h (Nat.not_lt_zero _), fun _ h => absurd h (Nat.not_lt_zero _),
      fun _ h => absurd h (Nat.not_lt_zero _), fun _ h => absurd h (Nat.not_lt_zero _)⟩ (by
      rintro l e o he hw hl h1
      rw [← hT.count] at hl
      exact hrOffsetBody_spec hT hl h1 (hT.base.ids e he) (hT.two e he hw))
  refine ⟨g, o, ⟨hg2, ?_, ho2⟩, ?_⟩
  · intro j hj; exact hg3 j (by rw [← hT.count]; exact hj)
  · unfold createInteriorHRC
    rw [hg1]
    show Option.map _ (ownedLoopC T T.internal (hrOffsetBody T) _) = _
    rw [ho1]
    rfl

/-! ### Evaluation -/

/-- what the two cells of internal edge `id` receive, before scaling -/
noncomputable def hrFC (P : FlowParams) (T : CTables) (V : BedTables) (u : Arr ℝ) (id : ℕ) : Option (Flux × Flux) :=
  hrPairCeed P (V.zcOf (T.leftOf id)) (V.zcOf (T.R id)) (stateAt u (T.leftOf id)) (stateAt u (T.R id)) (T.sn.val id) (T.cn.val id)

/-- the Courant numbers of an internal edge (`k = 0`: for the left cell) -/
noncomputable def hrCourant (P : FlowParams) (T : CTables) (V : BedTables) (u : Arr ℝ) (dt : ℝ) (id k : ℕ) : Num :=
  (hrAmaxCeed P (V.zcOf (T.leftOf id)) (V.zcOf (T.R id)) (stateAt u (T.leftOf id)) (stateAt u (T.R id)) (T.sn.val id) (T.cn.val id)).map
    fun a => if k = 0 then -a * (-T.elen.val id / T.area.val (T.leftOf id)) * dt else a * (T.elen.val id / T.area.val (T.R id)) * dt

theorem interiorHR_point (P : FlowParams) (junk : Unwritten) (hT : T.Valid nc n ne nv) {g : Arr ℝ} {o : HROffsets} (hR : HRReady T V g o)
    {u : Arr ℝ} (hu : u.len = 3 * nc) (fl cn : Arr Num) (dt : ℝ) {j : ℕ} (hj : j < T.numOwnedInternal) :
    ∃ x y : ℕ → Num, (interiorHRC P junk T.numOwnedInternal g o fl cn).point dt u j =
      some [fun k => Num.scale ((hrFC P T V u (T.internal.val ((T.owned' T.internal T.internal.len).getD j 0))).map fun F => F.1.comp k)
          (-T.elen.val (T.internal.val ((T.owned' T.internal T.internal.len).getD j 0)) /
            T.area.val (T.leftOf (T.internal.val ((T.owned' T.internal T.internal.len).getD j 0)))),
        fun k => Num.scale ((hrFC P T V u (T.internal.val ((T.owned' T.internal T.internal.len).getD j 0))).map fun F => F.2.comp k)
          (T.elen.val (T.internal.val ((T.owned' T.internal T.internal.len).getD j 0)) /
            T.area.val (T.R (T.internal.val ((T.owned' T.internal T.internal.len).getD j 0)))),
        fun k => if k < 2 then hrCourant P T V u dt (T.internal.val ((T.owned' T.internal T.internal.len).getD j 0)) k else x k,
        y] ∧ ((∀ d l k, junk d l 3 k = some 0) → ∀ k, y k = some 0) := by
  obtain ⟨hid, h2⟩ := interior_id hT hj
  have hjl : j < (T.owned' T.internal T.internal.len).length := by rw [← hT.count]; exact hj
  have hL := hT.left_lt hid
  have hRt := (hT.right_lt hid h2).2
  have hg := hR.geom j hj
  have hq := hR.set
  unfold COp.point interiorHRC gatherAll
  dsimp only
  rw [gather_strided hj hR.len]
  unfold gatherAll
  rw [gather_offsets (v := none) hj hq.ql_len (hq.ql j hjl) (show _ ≤ u.len by omega)]
  unfold gatherAll
  rw [gather_offsets (v := none) hj hq.qr_len (hq.qr j hjl) (show _ ≤ u.len by omega)]
  unfold gatherAll
  generalize T.internal.val ((T.owned' T.internal T.internal.len).getD j 0) = id at *
  have g0 : g.val (6 * j + 0) = T.sn.val id := hg 0 (by omega)
  have g1 : g.val (6 * j + 1) = T.cn.val id := hg 1 (by omega)
  have g2 : g.val (6 * j + 2) = -T.elen.val id / T.area.val (T.leftOf id) := hg 2 (by omega)
  have g3 : g.val (6 * j + 3) = T.elen.val id / T.area.val (T.R id) := hg 3 (by omega)
  have g4 : g.val (6 * j + 4) = V.zcOf (T.leftOf id) := hg 4 (by omega)
  have g5 : g.val (6 * j + 5) = V.zcOf (T.R id) := hg 5 (by omega)
  refine ⟨junk dt [fun k => g.val (6 * j + k), fun k => u.val (3 * T.leftOf id + k), fun k => u.val (3 * T.R id + k)] 2,
    junk dt [fun k => g.val (6 * j + k), fun k => u.val (3 * T.leftOf id + k), fun k => u.val (3 * T.R id + k)] 3, ?_, fun h k => h _ _ k⟩
  show hrKernel P junk dt [fun k => g.val (6 * j + k), fun k => u.val (3 * T.leftOf id + k), fun k => u.val (3 * T.R id + k)] = _
  unfold hrKernel
  simp only [g0, g1, g2, g3, g4, g5]
  rfl

/-- what an internal edge adds to component `k` of place `c` -/
noncomputable def hrAdd (P : FlowParams) (T : CTables) (V : BedTables) (u : Arr ℝ) (c k : ℕ) (s : Num) (e : ℕ) : Num :=
  (s.add (recv true (T.l2o.val (T.leftOf (T.internal.val e))) c (Num.scale ((hrFC P T V u (T.internal.val e)).map fun F => F.1.comp k)
      (-T.elen.val (T.internal.val e) / T.area.val (T.leftOf (T.internal.val e)))))).add
    (recv true (T.l2o.val (T.R (T.internal.val e))) c (Num.scale ((hrFC P T V u (T.internal.val e)).map fun F => F.2.comp k)
      (T.elen.val (T.internal.val e) / T.area.val (T.R (T.internal.val e)))))

theorem interiorHR_apply (P : FlowParams) (junk : Unwritten) (hT : T.Valid nc n ne nv) {g : Arr ℝ} {o : HROffsets} (hR : HRReady T V g o)
    {u : Arr ℝ} (hu : u.len = 3 * nc) {fl cn rhs : Arr Num} (hf : fl.len = 3 * T.numOwnedInternal)
    (hc : cn.len = 2 * T.numOwnedInternal) (hr : rhs.len = 3 * nc) (dt : ℝ) :
    ∃ fl' cn' rhs', (interiorHRC P junk T.numOwnedInternal g o fl cn).applyAdd dt u rhs =
        some (interiorHRC P junk T.numOwnedInternal g o fl' cn', rhs') ∧ fl'.len = fl.len ∧ cn'.len = cn.len ∧ rhs'.len = rhs.len ∧
      (∀ c k, k < 3 → rhs'.val (3 * c + k) =
        (T.owned' T.internal T.internal.len).foldl (hrAdd P T V u c k) (rhs.val (3 * c + k))) ∧
      (∀ j < T.numOwnedInternal, ∀ k < 2, fl'.val (3 * j + k) = (fl.val (3 * j + k)).add
        (hrCourant P T V u dt (T.internal.val ((T.owned' T.internal T.internal.len).getD j 0)) k)) ∧
      ((∀ d l k, junk d l 3 k = some 0) → ∀ j < T.numOwnedInternal, ∀ k < 2, cn'.val (2 * j + k) = cn.val (2 * j + k)) := by
  have hpt : ∀ j : ℕ, ∃ x y : ℕ → Num, j < T.numOwnedInternal → (interiorHRC P junk T.numOwnedInternal g o fl cn).point dt u j =
      some [fun k => Num.scale ((hrFC P T V u (T.internal.val ((T.owned' T.internal T.internal.len).getD j 0))).map fun F => F.1.comp k)
          (-T.elen.val (T.internal.val ((T.owned' T.internal T.internal.len).getD j 0)) /
            T.area.val (T.leftOf (T.internal.val ((T.owned' T.internal T.internal.len).getD j 0)))),
        fun k => Num.scale ((hrFC P T V u (T.internal.val ((T.owned' T.internal T.internal.len).getD j 0))).map fun F => F.2.comp k)
          (T.elen.val (T.internal.val ((T.owned' T.internal T.internal.len).getD j 0)) /
            T.area.val (T.R (T.internal.val ((T.owned' T.internal T.internal.len).getD j 0)))),
        fun k => if k < 2 then hrCourant P T V u dt (T.internal.val ((T.owned' T.internal T.internal.len).getD j 0)) k else x k,
        y] ∧ ((∀ d l k, junk d l 3 k = some 0) → ∀ k, y k = some 0) := by
    intro j
    by_cases hj : j < T.numOwnedInternal
    · obtain ⟨x, y, h1, h2⟩ := interiorHR_point P junk hT hR hu fl cn dt hj
      exact ⟨x, y, fun _ => ⟨h1, h2⟩⟩
    · exact ⟨fun _ => none, fun _ => none, fun h => absurd h hj⟩
  choose X Y hXY using hpt
  obtain ⟨E, hE1, hE2⟩ := points_some (op := interiorHRC P junk T.numOwnedInternal g o fl cn) (dt := dt) (u := u)
    (fun j hj => (hXY j hj).1)
  replace hE2 : ∀ j < T.numOwnedInternal, E j =
      [fun k => Num.scale ((hrFC P T V u (T.internal.val ((T.owned' T.internal T.internal.len).getD j 0))).map fun F => F.1.comp k)
          (-T.elen.val (T.internal.val ((T.owned' T.internal T.internal.len).getD j 0)) /
            T.area.val (T.leftOf (T.internal.val ((T.owned' T.internal T.internal.len).getD j 0)))),
        fun k => Num.scale ((hrFC P T V u (T.internal.val ((T.owned' T.internal T.internal.len).getD j 0))).map fun F => F.2.comp k)
          (T.elen.val (T.internal.val ((T.owned' T.internal T.internal.len).getD j 0)) /
            T.area.val (T.R (T.internal.val ((T.owned' T.internal T.internal.len).getD j 0)))),
        fun k => if k < 2 then hrCourant P T V u dt (T.internal.val ((T.owned' T.internal T.internal.len).getD j 0)) k else X j k,
        Y j] := hE2
  have hq := hR.set
  have hcnt : ∀ j < T.numOwnedInternal, j < (T.owned' T.internal T.internal.len).length := fun j hj => by rw [← hT.count]; exact hj
  obtain ⟨r1, a1, a2, a3⟩ := addAll_spec (o := ⟨.offsets o.cl, 3, none⟩) (elems := T.numOwnedInternal) (f := 0) (n := nc) (E := E)
    (fun j => T.l2o.val (T.leftOf (T.internal.val ((T.owned' T.internal T.internal.len).getD j 0))))
    (fun j k => Num.scale ((hrFC P T V u (T.internal.val ((T.owned' T.internal T.internal.len).getD j 0))).map fun F => F.1.comp k)
      (-T.elen.val (T.internal.val ((T.owned' T.internal T.internal.len).getD j 0)) /
        T.area.val (T.leftOf (T.internal.val ((T.owned' T.internal T.internal.len).getD j 0)))))
    (a := rhs) (fun j hj => base_offsets hj hq.cl_len (hq.cl j (hcnt j hj)))
    (fun j hj => hT.l2o_lt _ (hT.left_lt (interior_id hT hj).1)) (fun j hj k => by rw [hE2 j hj]; rfl) hr
  obtain ⟨r2, b1, b2, b3⟩ := addAll_spec (o := ⟨.offsets o.cr, 3, none⟩) (elems := T.numOwnedInternal) (f := 1) (n := nc) (E := E)
    (fun j => T.l2o.val (T.R (T.internal.val ((T.owned' T.internal T.internal.len).getD j 0))))
    (fun j k => Num.scale ((hrFC P T V u (T.internal.val ((T.owned' T.internal T.internal.len).getD j 0))).map fun F => F.2.comp k)
      (T.elen.val (T.internal.val ((T.owned' T.internal T.internal.len).getD j 0)) /
        T.area.val (T.R (T.internal.val ((T.owned' T.internal T.internal.len).getD j 0)))))
    (a := r1) (fun j hj => base_offsets hj hq.cr_len (hq.cr j (hcnt j hj)))
    (fun j hj => hT.l2o_lt _ (hT.right_lt (interior_id hT hj).1 (interior_id hT hj).2).2) (fun j hj k => by rw [hE2 j hj]; rfl) (a2.trans hr)
  obtain ⟨f1, c1, c2, c3⟩ := addAll_spec (o := ⟨.strided 3, 3, some fl⟩) (elems := T.numOwnedInternal) (f := 2)
    (n := T.numOwnedInternal) (E := E) (fun j => j)
    (fun j k => if k < 2 then hrCourant P T V u dt (T.internal.val ((T.owned' T.internal T.internal.len).getD j 0)) k else X j k)
    (a := fl) (fun j hj => rfl) (fun j hj => hj) (fun j hj k => by rw [hE2 j hj]; rfl) hf
  obtain ⟨n1, d1, d2, d3⟩ := addAll_spec (o := ⟨.strided 2, 2, some cn⟩) (elems := T.numOwnedInternal) (f := 3)
    (n := T.numOwnedInternal) (E := E) (fun j => j) (fun j k => Y j k)
    (a := cn) (fun j hj => rfl) (fun j hj => hj) (fun j hj k => by rw [hE2 j hj]; rfl) hc
  refine ⟨f1, n1, r2, ?_, c2, d2, b2.trans a2, ?_, ?_, ?_⟩
  · unfold COp.applyAdd
    rw [hE1]
    show Option.map _ (addOutputs T.numOwnedInternal E 0 _ rhs) = _
    unfold interiorHRC addOutputs
    dsimp only
    rw [a1]
    unfold addOutputs
    dsimp only [Option.bind]
    rw [b1]
    unfold addOutputs
    dsimp only [Option.bind]
    rw [c1]
    unfold addOutputs
    dsimp only [Option.bind]
    rw [d1]
    rfl
  · intro c k hk
    have h1 := b3 c k hk
    have h2 := a3 c k hk
    dsimp only at h1 h2
    rw [h1, h2]
    refine (foldl_two _ _ _ _).trans ?_
    rw [hT.count]
    exact foldl_range_getD (hrAdd P T V u c k) _ _
  · intro j hj k hk
    have h1 := c3 j k (by show k < 3; omega)
    dsimp only at h1
    rw [h1]
    refine (foldl_own _ _ _ _).trans ?_
    rw [if_pos hj, if_pos hk]
  · intro hz j hj k hk
    have h1 := d3 j k hk
    dsimp only at h1
    rw [h1]
    refine (foldl_own _ _ _ _).trans ?_
    rw [if_pos hj, (hXY j hj).2 hz k, Num.add_zero']

/-- The composite operator, with the contents `Φ` of the vectors of boundary fluxes. -/
def HROpsReady (P : FlowParams) (junk : Unwritten) (T : CTables) (V : BedTables) (Bs : List Bnd) (Φ : Bnd → ℕ → ℕ → Num) (ops : List COp) : Prop :=
  ∃ g o fl cn bops, HRReady T V g o ∧ fl.len = 3 * T.numOwnedInternal ∧ cn.len = 2 * T.numOwnedInternal ∧
    ops = interiorHRC P junk T.numOwnedInternal g o fl cn :: bops ∧ List.Forall₂ (BOpReady P T T.vz Φ) Bs bops

theorem evaluationHR_spec (P : FlowParams) (junk : Unwritten) (hT : T.Valid nc n ne nv) {u : Arr ℝ} (hu : u.len = 3 * nc)
    {Φ : Bnd → ℕ → ℕ → Num} (dt : ℝ) {Bs : List Bnd} {ops : List COp} (hB : ∀ B ∈ Bs, B.Valid ne) (h : HROpsReady P junk T V Bs Φ ops) :
    ∃ ops' rhs', fluxEvaluationC nc dt u ops = some (ops', rhs') ∧ HROpsReady P junk T V Bs (plusFlux P T T.vz u Φ) ops' ∧
      rhs'.len = 3 * nc ∧ (∀ c k, k < 3 → rhs'.val (3 * c + k) = boundariesAdd P T T.vz u c k
        ((T.owned' T.internal T.internal.len).foldl (hrAdd P T V u c k) (some 0)) Bs) ∧
      ∃ fl fl' cn cn', ops[0]?.bind (fun op => op.outVec 2) = some fl ∧ ops'[0]?.bind (fun op => op.outVec 2) = some fl' ∧
        ops[0]?.bind (fun op => op.outVec 3) = some cn ∧ ops'[0]?.bind (fun op => op.outVec 3) = some cn' ∧
        (∀ j < T.numOwnedInternal, ∀ k < 2, fl'.val (3 * j + k) = (fl.val (3 * j + k)).add
          (hrCourant P T V u dt (T.internal.val ((T.owned' T.internal T.internal.len).getD j 0)) k)) ∧
        ((∀ d l k, junk d l 3 k = some 0) → ∀ j < T.numOwnedInternal, ∀ k < 2, cn'.val (2 * j + k) = cn.val (2 * j + k)) := by
  obtain ⟨g, o, fl, cn, bops, hR, hf, hc, rfl, hb⟩ := h
  obtain ⟨fl', cn', r1, e1, e2, e3, e4, e5, e6, e7⟩ := interiorHR_apply P junk hT hR hu hf hc
    (rhs := Arr.calloc (3 * nc) (some 0)) rfl dt
  obtain ⟨ops', r2, i1, i2, i3, i4⟩ := boundaries_apply P hT hT.vz hu dt hb hB e4
  refine ⟨_ :: ops', r2, ?_, ⟨g, o, fl', cn', ops', hR, e2.trans hf, e3.trans hc, rfl, i2⟩, i3, ?_,
    fl, fl', cn, cn', rfl, rfl, rfl, rfl, e6, e7⟩
  · unfold fluxEvaluationC compositeAdd
    rw [e1]
    show Option.map _ (compositeAdd dt u bops r1) = _
    rw [i1]
    rfl
  · intro c k hk
    rw [i4 c k hk, e5 c k hk]
    rfl

theorem createFluxHRC_spec (P : FlowParams) (junk : Unwritten) (hT : T.Valid nc n ne nv) (hV : V.Valid nc) {Bs : List Bnd}
    (hB : ∀ B ∈ Bs, B.Valid ne) :
    ∃ ops, createFluxHRC P junk T V Bs = some ops ∧ HROpsReady P junk T V Bs (fun _ _ _ => some 0) ops ∧
      ∃ cn, ops[0]?.bind (fun op => op.outVec 3) = some cn ∧ cn = Arr.calloc (2 * T.numOwnedInternal) (some 0) := by
  obtain ⟨g, o, h1, h2⟩ := createInteriorHRC_spec P junk hT hV
  obtain ⟨bops, h3, h4⟩ := createBoundariesC_spec P hT T.vz Bs hB
  refine ⟨_ :: bops, ?_, ⟨g, o, Arr.calloc (3 * T.numOwnedInternal) (some 0), Arr.calloc (2 * T.numOwnedInternal) (some 0), bops, h1,
    rfl, rfl, rfl, h4⟩, _, rfl, rfl⟩
  unfold createFluxHRC
  rw [h2]
  show Option.map _ (createBoundariesC P T T.vz Bs) = _
  rw [h3]
  rfl

theorem evaluationsHR_spec (P : FlowParams) (junk : Unwritten) (hT : T.Valid nc n ne nv) {Bs : List Bnd}
    (hB : ∀ B ∈ Bs, B.Valid ne) : ∀ (l : List (ℝ × Arr ℝ)) (Φ : Bnd → ℕ → ℕ → Num) (ops : List COp), (∀ s ∈ l, s.2.len = 3 * nc) →
    HROpsReady P junk T V Bs Φ ops → ∃ ops', fluxEvaluationsC nc l ops = some ops' ∧
      HROpsReady P junk T V Bs (plusFluxes P T T.vz l Φ) ops' := by
  intro l
  induction l with
  | nil => intro Φ ops _ h; exact ⟨ops, rfl, h⟩
  | cons s l ih =>
    intro Φ ops hl h
    obtain ⟨ops1, r, e1, e2, -⟩ := evaluationHR_spec P junk hT (hl s List.mem_cons_self) s.1 hB h
    obtain ⟨ops2, i1, i2⟩ := ih _ ops1 (fun s' h' => hl s' (List.mem_cons_of_mem _ h')) e2
    refine ⟨ops2, ?_, i2⟩
    obtain ⟨dt, u⟩ := s
    show (fluxEvaluationC nc dt u ops).bind _ = _
    rw [e1]
    exact i1

/-! ### The model that treats edges one by one -/

/-- The mesh of `Ceed.lean` with the bed elevations. -/
noncomputable def ceedHRMeshOf (T : CTables) (V : BedTables) (Bs : List Bnd) (nc : ℕ) : PMesh := { ceedMeshOf T Bs nc with zc := V.zcOf }

theorem internalHR_entry (P : FlowParams) (T : CTables) (V : BedTables) (Bs : List Bnd) (nc : ℕ) (u : Arr ℝ) (o i : ℕ) :
    ∀ (l : List ℕ) (f g : ℕ → Flux), (∀ e ∈ l, T.cellIds.val (2 * T.internal.val e + 1) ≠ -1) →
      (l.map fun e => (⟨T.leftOf (T.internal.val e), T.rightOf (T.internal.val e), T.elen.val (T.internal.val e),
        T.sn.val (T.internal.val e), T.cn.val (T.internal.val e)⟩ : IEdge)).foldlM
          (ceedEdgeHR P (ceedHRMeshOf T V Bs nc) (stateAt u)) f = some g →
      l.foldl (hrAdd P T V u o i) (some ((f o).comp i)) = some ((g o).comp i) := by
  intro l
  induction l with
  | nil => intro f g _ h; cases h; rfl
  | cons e l ih =>
    intro f g hl h
    obtain ⟨f', h1, h2⟩ := foldlM_cons_some h
    rw [List.foldl_cons, ← ih f' g (fun e' h' => hl e' (List.mem_cons_of_mem _ h')) h2]
    congr 1
    unfold ceedEdgeHR at h1
    dsimp only at h1
    rw [rightOf_some (hl e List.mem_cons_self)] at h1
    dsimp only at h1
    obtain ⟨F, hF, hf'⟩ := Option.map_eq_some_iff.mp h1
    have hE : hrFC P T V u (T.internal.val e) = some F := hF
    unfold hrAdd
    rw [hE, ← hf', addAt_comp, addAt_comp]
    rfl

theorem internalHR_nan (P : FlowParams) (T : CTables) (V : BedTables) (Bs : List Bnd) (nc : ℕ) (u : Arr ℝ) :
    ∀ (l : List ℕ) (f : ℕ → Flux), (∀ e ∈ l, T.cellIds.val (2 * T.internal.val e + 1) ≠ -1) →
      (l.map fun e => (⟨T.leftOf (T.internal.val e), T.rightOf (T.internal.val e), T.elen.val (T.internal.val e),
        T.sn.val (T.internal.val e), T.cn.val (T.internal.val e)⟩ : IEdge)).foldlM
          (ceedEdgeHR P (ceedHRMeshOf T V Bs nc) (stateAt u)) f = none →
      ∃ e ∈ l, hrFC P T V u (T.internal.val e) = none := by
  intro l
  induction l with
  | nil => intro f _ h; cases h
  | cons e l ih =>
    intro f hl h
    rw [List.map_cons, List.foldlM_cons] at h
    cases h1 : ceedEdgeHR P (ceedHRMeshOf T V Bs nc) (stateAt u) f ⟨T.leftOf (T.internal.val e), T.rightOf (T.internal.val e),
        T.elen.val (T.internal.val e), T.sn.val (T.internal.val e), T.cn.val (T.internal.val e)⟩ with
    | some f' =>
      rw [h1] at h
      obtain ⟨e', h3, h4⟩ := ih f' (fun e' h' => hl e' (List.mem_cons_of_mem _ h')) h
      exact ⟨e', List.mem_cons_of_mem _ h3, h4⟩
    | none =>
      refine ⟨e, List.mem_cons_self, ?_⟩
      unfold ceedEdgeHR at h1
      dsimp only at h1
      rw [rightOf_some (hl e List.mem_cons_self)] at h1
      dsimp only at h1
      exact Option.map_eq_none_iff.mp h1

theorem hrAdd_none (P : FlowParams) (T : CTables) (V : BedTables) (u : Arr ℝ) (c k e : ℕ) : hrAdd P T V u c k none e = none := by
  unfold hrAdd
  rw [Num.none_add, Num.none_add]

theorem hrAdd_nan {P : FlowParams} {T : CTables} {V : BedTables} {u : Arr ℝ} {e : ℕ} (h : hrFC P T V u (T.internal.val e) = none)
    (k : ℕ) (s : Num) : hrAdd P T V u (T.l2o.val (T.leftOf (T.internal.val e))) k s e = none := by
  unfold hrAdd
  rw [h]
  unfold recv
  rw [if_pos ⟨rfl, rfl⟩]
  show Num.add (Num.add s none) _ = none
  rw [Num.add_none, Num.none_add]

/-- the result of an evaluation in terms of the model that treats edges one by one -/
theorem divergenceHR_entry (P : FlowParams) (hT : T.Valid nc n ne nv) (Bs : List Bnd) {u : Arr ℝ}
    {f : ℕ → Flux} (h : ceedDivergence P true (ceedHRMeshOf T V Bs nc) (stateAt u) = some f) (c k : ℕ) :
    boundariesAdd P T T.vz u c k ((T.owned' T.internal T.internal.len).foldl (hrAdd P T V u c k) (some 0)) Bs =
      some ((f c).comp k) := by
  unfold ceedDivergence at h
  obtain ⟨f1, h1, h2⟩ := Option.bind_eq_some_iff.mp h
  have h3 := internalHR_entry P T V Bs nc u c k _ _ f1 (fun e he => hT.two e (owned'_mem he).1 (owned'_mem he).2) h1
  have h4 : (Flux.zero.comp k) = 0 := comp_zero k
  rw [h4] at h3
  rw [h3]
  exact boundaries_entry P T Bs nc T.vz u rfl c k Bs f1 f h2

theorem divergenceHR_nan (P : FlowParams) (hT : T.Valid nc n ne nv) {Bs : List Bnd} (hB : ∀ B ∈ Bs, B.Valid ne) {u : Arr ℝ}
    (h : ceedDivergence P true (ceedHRMeshOf T V Bs nc) (stateAt u) = none) :
    ∃ c < nc, ∀ k, boundariesAdd P T T.vz u c k ((T.owned' T.internal T.internal.len).foldl (hrAdd P T V u c k) (some 0)) Bs = none := by
  unfold ceedDivergence at h
  cases h1 : (ceedHRMeshOf T V Bs nc).internal.foldlM (ceedEdgeHR P (ceedHRMeshOf T V Bs nc) (stateAt u)) (fun _ => Flux.zero) with
  | none =>
    obtain ⟨e, he, hn⟩ := internalHR_nan P T V Bs nc u _ _ (fun e he => hT.two e (owned'_mem he).1 (owned'_mem he).2) h1
    refine ⟨_, hT.l2o_lt _ (hT.left_lt (hT.base.ids e (owned'_mem he).1)), fun k => ?_⟩
    rw [foldl_nan _ (fun a => hrAdd_none P T V u _ k a) (fun s => hrAdd_nan hn k s) _ _ he, boundariesAdd_none]
  | some f1 =>
    have h2 : (ceedMeshOf T Bs nc).boundary.foldlM (ceedBEdge P (ceedMeshOf T Bs nc) (stateAt u)) f1 = none := by
      have h3 : ((ceedHRMeshOf T V Bs nc).internal.foldlM (ceedEdgeHR P (ceedHRMeshOf T V Bs nc) (stateAt u)) (fun _ => Flux.zero)).bind
        (fun f => (ceedMeshOf T Bs nc).boundary.foldlM (ceedBEdge P (ceedMeshOf T Bs nc) (stateAt u)) f) = none := h
      rw [h1] at h3
      exact h3
    obtain ⟨B, hBm, e, he, hn⟩ := boundaries_nan P T Bs nc T.vz u rfl Bs f1 h2
    refine ⟨_, hT.l2o_lt _ (hT.left_lt ((hB B hBm).ids e (owned'_mem he).1)), fun k => ?_⟩
    exact foldl_nan _ (fun B => foldl_none _ (fun e => bEdgeAdd_none P T B T.vz u _ k e) _)
      (fun s => foldl_nan _ (fun a => bEdgeAdd_none P T B T.vz u _ k a) (fun s => bEdgeAdd_nan hn k s) _ s he) _ _ hBm

end RDy
