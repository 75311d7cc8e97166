import Verif.Lemmas.CeedOp
import Mathlib.Tactic

/-! Lemmas about the application of the assembled flux operators of the CEED backend. -/

namespace RDy

theorem foldl_range_getD {σ : Type} (f : σ → ℕ → σ) (l : List ℕ) (s : σ) :
    (List.range l.length).foldl (fun (s : σ) (j : ℕ) => f s (l.getD j 0)) s = l.foldl f s := by
  have h : (List.range l.length).map (fun j => l.getD j 0) = l := by
    apply List.ext_getElem
    · simp
    · intro i h1 h2
      simp [List.getD_eq_getElem?_getD, h2]
  conv_rhs => rw [← h, List.foldl_map]

variable {T : CTables} {nc n ne nv : ℕ}

/-- the flux of an internal edge -/
noncomputable def edgeFC (P : FlowParams) (T : CTables) (eta u : Arr ℝ) (id : ℕ) : Option (Flux × ℝ) :=
  edgeFluxCeed P.g P.tinyH P.hAnuga (stateAt u (T.leftOf id)) (stateAt u (T.R id)) (T.sn.val id) (T.cn.val id)
    (computeDhv (T.vz.val (T.vertexIds.val (2 * id))) (T.vz.val (T.vertexIds.val (2 * id + 1)))
      (eta.val (T.vertexIds.val (2 * id))) (eta.val (T.vertexIds.val (2 * id + 1))))

/-- what the Q-function gives for an internal edge -/
noncomputable def edgeOut (P : FlowParams) (T : CTables) (eta u : Arr ℝ) (dt : ℝ) (id : ℕ) : List (ℕ → Num) :=
  [fun k => Num.scale ((edgeFC P T eta u id).map fun F => F.1.comp k) (-T.elen.val id / T.area.val (T.leftOf id)),
   fun k => Num.scale ((edgeFC P T eta u id).map fun F => F.1.comp k) (T.elen.val id / T.area.val (T.R id)),
   fun k => (edgeFC P T eta u id).map fun F => F.1.comp k,
   fun k => (edgeFC P T eta u id).map fun F =>
      if k = 0 then -F.2 * (-T.elen.val id / T.area.val (T.leftOf id)) * dt else F.2 * (T.elen.val id / T.area.val (T.R id)) * dt]

theorem gather_offsets {o : Arr (Option ℕ)} {nd j b N : ℕ} {u : Arr ℝ} {v : Option (Arr ℝ)} (hj : j < N) (hl : o.len = N)
    (ho : o.val j = some b) (hb : b + nd ≤ (v.getD u).len) :
    CIn.gather ⟨.offsets o, nd, v⟩ u j = some fun k => (v.getD u).val (b + k) := by
  unfold CIn.gather Restr.base
  dsimp only
  rw [Arr.get_some (show j < o.len by omega)]
  show ((o.val j).bind fun b => if b + nd ≤ (v.getD u).len then some fun k => (v.getD u).val (b + k) else none) = _
  rw [ho]
  exact if_pos hb

theorem gather_strided {nd j N : ℕ} {u v : Arr ℝ} (hj : j < N) (hl : v.len = nd * N) :
    CIn.gather ⟨.strided nd, nd, some v⟩ u j = some fun k => v.val (nd * j + k) := by
  unfold CIn.gather Restr.base
  refine if_pos ?_
  show nd * j + nd ≤ v.len
  rw [hl]
  calc nd * j + nd = nd * (j + 1) := by ring
    _ ≤ nd * N := Nat.mul_le_mul_left _ hj

theorem getD_mem' {l : List ℕ} {j : ℕ} (h : j < l.length) : l.getD j 0 ∈ l := by
  rw [List.getD_eq_getElem?_getD, List.getElem?_eq_getElem h]
  exact List.getElem_mem h

theorem interior_id (hT : T.Valid nc n ne nv) {j : ℕ} (hj : j < T.numOwnedInternal) :
    T.internal.val ((T.owned' T.internal T.internal.len).getD j 0) < ne ∧
      T.cellIds.val (2 * T.internal.val ((T.owned' T.internal T.internal.len).getD j 0) + 1) ≠ -1 := by
  have h := owned'_mem (getD_mem' (l := T.owned' T.internal T.internal.len) (by rw [← hT.count]; exact hj))
  exact ⟨hT.base.ids _ h.1, hT.two _ h.1 h.2⟩

theorem interior_point (P : FlowParams) (hT : T.Valid nc n ne nv) {g : Arr ℝ} {o : Offsets} (hR : InteriorReady T g o)
    {eta u : Arr ℝ} (he : eta.len = nv) (hu : u.len = 3 * nc) (fl cn : Arr Num) (dt : ℝ) {j : ℕ} (hj : j < T.numOwnedInternal) :
    (interiorC P T.numOwnedInternal g o eta fl cn).point dt u j =
      some (edgeOut P T eta u dt (T.internal.val ((T.owned' T.internal T.internal.len).getD j 0))) := by
  obtain ⟨hid, h2⟩ := interior_id hT hj
  have hjl : j < (T.owned' T.internal T.internal.len).length := by rw [← hT.count]; exact hj
  have hL := hT.left_lt hid
  have hRt := (hT.right_lt hid h2).2
  have hv1 := hT.vertex (2 * T.internal.val ((T.owned' T.internal T.internal.len).getD j 0)) (by omega)
  have hv2 := hT.vertex (2 * T.internal.val ((T.owned' T.internal T.internal.len).getD j 0) + 1) (by omega)
  have hg := hR.geom j hj
  have hq := hR.set
  unfold COp.point interiorC gatherAll
  dsimp only
  rw [gather_strided hj hR.len]
  unfold gatherAll
  rw [gather_offsets (v := none) hj hq.ql_len (hq.ql j hjl) (show _ ≤ u.len by omega)]
  unfold gatherAll
  rw [gather_offsets (v := none) hj hq.qr_len (hR.qr j hj) (show _ ≤ u.len by omega)]
  unfold gatherAll
  rw [gather_offsets (v := some eta) hj hq.eb_len (hq.eb j hjl) (show _ ≤ eta.len by omega)]
  unfold gatherAll
  rw [gather_offsets (v := some eta) hj hq.ee_len (hq.ee j hjl) (show _ ≤ eta.len by omega)]
  unfold gatherAll
  generalize T.internal.val ((T.owned' T.internal T.internal.len).getD j 0) = id at *
  have g0 : g.val (6 * j + 0) = T.sn.val id := hg 0 (by omega)
  have g1 : g.val (6 * j + 1) = T.cn.val id := hg 1 (by omega)
  have g2 : g.val (6 * j + 2) = -T.elen.val id / T.area.val (T.leftOf id) := hg 2 (by omega)
  have g3 : g.val (6 * j + 3) = T.elen.val id / T.area.val (T.R id) := hg 3 (by omega)
  have g4 : g.val (6 * j + 4) = T.vz.val (T.vertexIds.val (2 * id)) := hg 4 (by omega)
  have g5 : g.val (6 * j + 5) = T.vz.val (T.vertexIds.val (2 * id + 1)) := hg 5 (by omega)
  show sweKernel P dt [fun k => g.val (6 * j + k), fun k => u.val (3 * T.leftOf id + k), fun k => u.val (3 * T.R id + k),
    fun k => eta.val (T.vertexIds.val (2 * id) + k), fun k => eta.val (T.vertexIds.val (2 * id + 1) + k)] = _
  unfold sweKernel
  simp only [g0, g1, g2, g3, g4, g5]
  rfl

theorem points_some {op : COp} {dt : ℝ} {u : Arr ℝ} {E : ℕ → List (ℕ → Num)} (h : ∀ j < op.elems, op.point dt u j = some (E j)) :
    ∃ E', op.points dt u = some E' ∧ ∀ j < op.elems, E' j = E j := by
  refine ⟨_, if_pos fun e he => by rw [h e he]; rfl, ?_⟩
  intro j hj
  rw [h j hj]
  rfl

theorem base_offsets {o : Arr (Option ℕ)} {j b N : ℕ} (hj : j < N) (hl : o.len = N) (ho : o.val j = some b) :
    (Restr.offsets o).base j = some b := by
  unfold Restr.base
  dsimp only
  rw [Arr.get_some (by omega)]
  exact ho

/-- what an internal edge adds to component `k` of place `c` -/
noncomputable def edgeAdd (P : FlowParams) (T : CTables) (eta u : Arr ℝ) (c k : ℕ) (s : Num) (e : ℕ) : Num :=
  (s.add (recv true (T.l2o.val (T.leftOf (T.internal.val e))) c (Num.scale ((edgeFC P T eta u (T.internal.val e)).map fun F => F.1.comp k)
      (-T.elen.val (T.internal.val e) / T.area.val (T.leftOf (T.internal.val e)))))).add
    (recv true (T.l2o.val (T.R (T.internal.val e))) c (Num.scale ((edgeFC P T eta u (T.internal.val e)).map fun F => F.1.comp k)
      (T.elen.val (T.internal.val e) / T.area.val (T.R (T.internal.val e)))))

/-- the Courant numbers of an internal edge (`k = 0`: for the left cell) -/
noncomputable def edgeCourant (P : FlowParams) (T : CTables) (eta u : Arr ℝ) (dt : ℝ) (id k : ℕ) : Num :=
  (edgeFC P T eta u id).map fun F =>
    if k = 0 then -F.2 * (-T.elen.val id / T.area.val (T.leftOf id)) * dt else F.2 * (T.elen.val id / T.area.val (T.R id)) * dt

theorem interior_apply (P : FlowParams) (hT : T.Valid nc n ne nv) {g : Arr ℝ} {o : Offsets} (hR : InteriorReady T g o)
    {eta u : Arr ℝ} (he : eta.len = nv) (hu : u.len = 3 * nc) {fl cn rhs : Arr Num} (hf : fl.len = 3 * T.numOwnedInternal)
    (hc : cn.len = 2 * T.numOwnedInternal) (hr : rhs.len = 3 * nc) (dt : ℝ) :
    ∃ fl' cn' rhs', (interiorC P T.numOwnedInternal g o eta fl cn).applyAdd dt u rhs =
        some (interiorC P T.numOwnedInternal g o eta fl' cn', rhs') ∧ fl'.len = fl.len ∧ cn'.len = cn.len ∧ rhs'.len = rhs.len ∧
      (∀ c k, k < 3 → rhs'.val (3 * c + k) =
        (T.owned' T.internal T.internal.len).foldl (edgeAdd P T eta u c k) (rhs.val (3 * c + k))) ∧
      (∀ j < T.numOwnedInternal, ∀ k < 3, fl'.val (3 * j + k) = (fl.val (3 * j + k)).add
        ((edgeFC P T eta u (T.internal.val ((T.owned' T.internal T.internal.len).getD j 0))).map fun F => F.1.comp k)) ∧
      (∀ j < T.numOwnedInternal, ∀ k < 2, cn'.val (2 * j + k) = (cn.val (2 * j + k)).add
        (edgeCourant P T eta u dt (T.internal.val ((T.owned' T.internal T.internal.len).getD j 0)) k)) := by
  obtain ⟨E, hE1, hE2⟩ := points_some (op := interiorC P T.numOwnedInternal g o eta fl cn) (dt := dt) (u := u)
    (E := fun j => edgeOut P T eta u dt (T.internal.val ((T.owned' T.internal T.internal.len).getD j 0)))
    (fun j hj => interior_point P hT hR he hu fl cn dt hj)
  replace hE2 : ∀ j < T.numOwnedInternal, E j = edgeOut P T eta u dt (T.internal.val ((T.owned' T.internal T.internal.len).getD j 0)) := hE2
  have hq := hR.set
  have hcnt : ∀ j < T.numOwnedInternal, j < (T.owned' T.internal T.internal.len).length := fun j hj => by rw [← hT.count]; exact hj
  obtain ⟨r1, a1, a2, a3⟩ := addAll_spec (o := ⟨.offsets o.cl, 3, none⟩) (elems := T.numOwnedInternal) (f := 0) (n := nc) (E := E)
    (fun j => T.l2o.val (T.leftOf (T.internal.val ((T.owned' T.internal T.internal.len).getD j 0))))
    (fun j k => Num.scale ((edgeFC P T eta u (T.internal.val ((T.owned' T.internal T.internal.len).getD j 0))).map fun F => F.1.comp k)
      (-T.elen.val (T.internal.val ((T.owned' T.internal T.internal.len).getD j 0)) /
        T.area.val (T.leftOf (T.internal.val ((T.owned' T.internal T.internal.len).getD j 0)))))
    (a := rhs) (fun j hj => base_offsets hj hq.cl_len (hq.cl j (hcnt j hj)))
    (fun j hj => hT.l2o_lt _ (hT.left_lt (interior_id hT hj).1)) (fun j hj k => by rw [hE2 j hj]; rfl) hr
  obtain ⟨r2, b1, b2, b3⟩ := addAll_spec (o := ⟨.offsets o.cr, 3, none⟩) (elems := T.numOwnedInternal) (f := 1) (n := nc) (E := E)
    (fun j => T.l2o.val (T.R (T.internal.val ((T.owned' T.internal T.internal.len).getD j 0))))
    (fun j k => Num.scale ((edgeFC P T eta u (T.internal.val ((T.owned' T.internal T.internal.len).getD j 0))).map fun F => F.1.comp k)
      (T.elen.val (T.internal.val ((T.owned' T.internal T.internal.len).getD j 0)) /
        T.area.val (T.R (T.internal.val ((T.owned' T.internal T.internal.len).getD j 0)))))
    (a := r1) (fun j hj => base_offsets hj hq.cr_len (hR.cr j hj))
    (fun j hj => hT.l2o_lt _ (hT.right_lt (interior_id hT hj).1 (interior_id hT hj).2).2) (fun j hj k => by rw [hE2 j hj]; rfl) (a2.trans hr)
  obtain ⟨f1, c1, c2, c3⟩ := addAll_spec (o := ⟨.strided 3, 3, some fl⟩) (elems := T.numOwnedInternal) (f := 2)
    (n := T.numOwnedInternal) (E := E) (fun j => j)
    (fun j k => (edgeFC P T eta u (T.internal.val ((T.owned' T.internal T.internal.len).getD j 0))).map fun F => F.1.comp k)
    (a := fl) (fun j hj => rfl) (fun j hj => hj) (fun j hj k => by rw [hE2 j hj]; rfl) hf
  obtain ⟨n1, d1, d2, d3⟩ := addAll_spec (o := ⟨.strided 2, 2, some cn⟩) (elems := T.numOwnedInternal) (f := 3)
    (n := T.numOwnedInternal) (E := E) (fun j => j)
    (fun j k => edgeCourant P T eta u dt (T.internal.val ((T.owned' T.internal T.internal.len).getD j 0)) k)
    (a := cn) (fun j hj => rfl) (fun j hj => hj) (fun j hj k => by rw [hE2 j hj]; rfl) hc
  refine ⟨f1, n1, r2, ?_, c2, d2, b2.trans a2, ?_, ?_, ?_⟩
  · unfold COp.applyAdd
    rw [hE1]
    show Option.map _ (addOutputs T.numOwnedInternal E 0 _ rhs) = _
    unfold interiorC addOutputs
    dsimp only
    rw [a1]
    unfold addOutputs
    dsimp only [Option.bind]
    rw [b1]
    unfold addOutputs
    dsimp only [Option.bind]
    rw [c1]
    unfold addOutputs
    dsimp only [Option.bind]
    rw [d1]
    rfl
  · intro c k hk
    have h1 := b3 c k hk
    have h2 := a3 c k hk
    dsimp only at h1 h2
    rw [h1, h2]
    refine (foldl_two _ _ _ _).trans ?_
    rw [hT.count]
    exact foldl_range_getD (edgeAdd P T eta u c k) _ _
  · intro j hj k hk
    have h1 := c3 j k hk
    dsimp only at h1
    rw [h1]
    refine (foldl_own _ _ _ _).trans ?_
    rw [if_pos hj]
  · intro j hj k hk
    have h1 := d3 j k hk
    dsimp only at h1
    rw [h1]
    refine (foldl_own _ _ _ _).trans ?_
    rw [if_pos hj]

/-! ### Boundaries -/

/-- the flux of edge number `e` of a boundary -/
noncomputable def bEdgeFC (P : FlowParams) (T : CTables) (B : Bnd) (eta u : Arr ℝ) (e : ℕ) : Option (Flux × ℝ) :=
  boundaryFluxDhv P (B.cond e) (stateAt u (T.leftOf (B.ids.val e))) (T.sn.val (B.ids.val e)) (T.cn.val (B.ids.val e))
    (computeDhv (T.vz.val (T.vertexIds.val (2 * B.ids.val e))) (T.vz.val (T.vertexIds.val (2 * B.ids.val e + 1)))
      (eta.val (T.vertexIds.val (2 * B.ids.val e))) (eta.val (T.vertexIds.val (2 * B.ids.val e + 1))))

/-- minus length over area -/
noncomputable def bWeight (T : CTables) (B : Bnd) (e : ℕ) : ℝ := -T.elen.val (B.ids.val e) / T.area.val (T.leftOf (B.ids.val e))

theorem boundary_point (P : FlowParams) (hT : T.Valid nc n ne nv) {B : Bnd} (hB : B.Valid ne) {g : Arr ℝ} {o : Offsets}
    (hR : BoundaryReady T B g o) {eta u : Arr ℝ} (he : eta.len = nv) (hu : u.len = 3 * nc) (fl cn : Arr Num) (dt : ℝ) {j : ℕ}
    (hj : j < (T.owned' B.ids B.ids.len).length) :
    (boundaryC P B (T.owned' B.ids B.ids.len).length g o eta fl cn).point dt u j =
      some (bOutputs dt (bWeight T B ((T.owned' B.ids B.ids.len).getD j 0))
        (bEdgeFC P T B eta u ((T.owned' B.ids B.ids.len).getD j 0))) := by
  have hm := owned'_mem (getD_mem' hj)
  have hid := hB.ids _ hm.1
  have hL := hT.left_lt hid
  have hjN : j < B.ids.len := hj.trans_le (owned'_len_self T B.ids B.ids.len)
  have hv1 := hT.vertex (2 * B.ids.val ((T.owned' B.ids B.ids.len).getD j 0)) (by omega)
  have hv2 := hT.vertex (2 * B.ids.val ((T.owned' B.ids B.ids.len).getD j 0) + 1) (by omega)
  have hg := hR.geom j hj
  have hq := hR.set
  have hqr := hR.qr j hj
  have q1 := hq.ql j hj
  have q2 := hq.eb j hj
  have q3 := hq.ee j hj
  have hval := hB.values
  generalize (T.owned' B.ids B.ids.len).getD j 0 = e at *
  have g0 : g.val (5 * j + 0) = T.sn.val (B.ids.val e) := hg 0 (by omega)
  have g1 : g.val (5 * j + 1) = T.cn.val (B.ids.val e) := hg 1 (by omega)
  have g2 : g.val (5 * j + 2) = -T.elen.val (B.ids.val e) / T.area.val (T.leftOf (B.ids.val e)) := hg 2 (by omega)
  have g3 : g.val (5 * j + 3) = T.vz.val (T.vertexIds.val (2 * B.ids.val e)) := hg 3 (by omega)
  have g4 : g.val (5 * j + 4) = T.vz.val (T.vertexIds.val (2 * B.ids.val e + 1)) := hg 4 (by omega)
  have x0 := gather_strided (u := u) hjN hR.len
  have x1 := gather_offsets (nd := 3) (u := u) (v := none) hjN hq.ql_len q1 (show _ ≤ u.len by omega)
  have x2 := gather_offsets (nd := 1) (u := u) (v := some eta) hjN hq.eb_len q2 (show _ ≤ eta.len by omega)
  have x3 := gather_offsets (nd := 1) (u := u) (v := some eta) hjN hq.ee_len q3 (show _ ≤ eta.len by omega)
  have x4 := gather_offsets (nd := 3) (u := u) (v := some B.values) hjN hq.qr_len hqr (show _ ≤ B.values.len by have := hm.1; omega)
  unfold COp.point boundaryC bInputs bEdgeFC Bnd.cond
  cases B.type with
  | dirichlet =>
    dsimp only
    unfold gatherAll
    rw [x0]
    unfold gatherAll
    rw [x1]
    unfold gatherAll
    rw [x2]
    unfold gatherAll
    rw [x3]
    unfold gatherAll
    rw [x4]
    unfold gatherAll
    show sweBKernel P .dirichlet dt [fun k => g.val (5 * j + k), fun k => u.val (3 * T.leftOf (B.ids.val e) + k),
      fun k => eta.val (T.vertexIds.val (2 * B.ids.val e) + k), fun k => eta.val (T.vertexIds.val (2 * B.ids.val e + 1) + k),
      fun k => B.values.val (3 * e + k)] = _
    unfold sweBKernel
    simp only [g0, g1, g2, g3, g4]
    rfl
  | reflecting =>
    dsimp only
    unfold gatherAll
    rw [x0]
    unfold gatherAll
    rw [x1]
    unfold gatherAll
    rw [x2]
    unfold gatherAll
    rw [x3]
    unfold gatherAll
    show sweBKernel P .reflecting dt [fun k => g.val (5 * j + k), fun k => u.val (3 * T.leftOf (B.ids.val e) + k),
      fun k => eta.val (T.vertexIds.val (2 * B.ids.val e) + k), fun k => eta.val (T.vertexIds.val (2 * B.ids.val e + 1) + k)] = _
    unfold sweBKernel
    simp only [g0, g1, g2, g3, g4]
    rfl
  | outflow =>
    dsimp only
    unfold gatherAll
    rw [x0]
    unfold gatherAll
    rw [x1]
    unfold gatherAll
    rw [x2]
    unfold gatherAll
    rw [x3]
    unfold gatherAll
    show sweBKernel P .outflow dt [fun k => g.val (5 * j + k), fun k => u.val (3 * T.leftOf (B.ids.val e) + k),
      fun k => eta.val (T.vertexIds.val (2 * B.ids.val e) + k), fun k => eta.val (T.vertexIds.val (2 * B.ids.val e + 1) + k)] = _
    unfold sweBKernel
    simp only [g0, g1, g2, g3, g4]
    rfl

/-- what edge number `e` of a boundary adds to component `k` of place `c` -/
noncomputable def bEdgeAdd (P : FlowParams) (T : CTables) (B : Bnd) (eta u : Arr ℝ) (c k : ℕ) (s : Num) (e : ℕ) : Num :=
  s.add (recv true (T.l2o.val (T.leftOf (B.ids.val e))) c
    (Num.scale ((bEdgeFC P T B eta u e).map fun F => F.1.comp k) (bWeight T B e)))

theorem boundary_apply (P : FlowParams) (hT : T.Valid nc n ne nv) {B : Bnd} (hB : B.Valid ne) {g : Arr ℝ} {o : Offsets}
    (hR : BoundaryReady T B g o) {eta u : Arr ℝ} (he : eta.len = nv) (hu : u.len = 3 * nc) {fl cn rhs : Arr Num}
    (hf : fl.len = 3 * B.ids.len) (hc : cn.len = 1 * B.ids.len) (hr : rhs.len = 3 * nc) (dt : ℝ) :
    ∃ fl' cn' rhs', (boundaryC P B (T.owned' B.ids B.ids.len).length g o eta fl cn).applyAdd dt u rhs =
        some (boundaryC P B (T.owned' B.ids B.ids.len).length g o eta fl' cn', rhs') ∧ fl'.len = fl.len ∧ cn'.len = cn.len ∧
      rhs'.len = rhs.len ∧
      (∀ c k, k < 3 → rhs'.val (3 * c + k) =
        (T.owned' B.ids B.ids.len).foldl (bEdgeAdd P T B eta u c k) (rhs.val (3 * c + k))) ∧
      (∀ j k, k < 3 → fl'.val (3 * j + k) = if j < (T.owned' B.ids B.ids.len).length then (fl.val (3 * j + k)).add
        ((bEdgeFC P T B eta u ((T.owned' B.ids B.ids.len).getD j 0)).map fun F => F.1.comp k) else fl.val (3 * j + k)) ∧
      (∀ j, cn'.val j = if j < (T.owned' B.ids B.ids.len).length then (cn.val j).add
        ((bEdgeFC P T B eta u ((T.owned' B.ids B.ids.len).getD j 0)).map fun F =>
          -F.2 * bWeight T B ((T.owned' B.ids B.ids.len).getD j 0) * dt) else cn.val j) := by
  obtain ⟨E, hE1, hE2⟩ := points_some (op := boundaryC P B (T.owned' B.ids B.ids.len).length g o eta fl cn) (dt := dt) (u := u)
    (E := fun j => bOutputs dt (bWeight T B ((T.owned' B.ids B.ids.len).getD j 0))
        (bEdgeFC P T B eta u ((T.owned' B.ids B.ids.len).getD j 0)))
    (fun j hj => boundary_point P hT hB hR he hu fl cn dt hj)
  replace hE2 : ∀ j < (T.owned' B.ids B.ids.len).length, E j = bOutputs dt (bWeight T B ((T.owned' B.ids B.ids.len).getD j 0))
        (bEdgeFC P T B eta u ((T.owned' B.ids B.ids.len).getD j 0)) := hE2
  have hq := hR.set
  have hle := owned'_len_self T B.ids B.ids.len
  obtain ⟨r1, a1, a2, a3⟩ := addAll_spec (o := ⟨.offsets o.cl, 3, none⟩) (elems := (T.owned' B.ids B.ids.len).length) (f := 0) (n := nc) (E := E)
    (fun j => T.l2o.val (T.leftOf (B.ids.val ((T.owned' B.ids B.ids.len).getD j 0))))
    (fun j k => Num.scale ((bEdgeFC P T B eta u ((T.owned' B.ids B.ids.len).getD j 0)).map fun F => F.1.comp k)
      (bWeight T B ((T.owned' B.ids B.ids.len).getD j 0)))
    (a := rhs) (fun j hj => base_offsets (hj.trans_le hle) hq.cl_len (hq.cl j hj))
    (fun j hj => hT.l2o_lt _ (hT.left_lt (hB.ids _ (owned'_mem (getD_mem' hj)).1))) (fun j hj k => by rw [hE2 j hj]; rfl) hr
  obtain ⟨f1, c1, c2, c3⟩ := addAll_spec (o := ⟨.strided 3, 3, some fl⟩) (elems := (T.owned' B.ids B.ids.len).length) (f := 1)
    (n := B.ids.len) (E := E) (fun j => j)
    (fun j k => (bEdgeFC P T B eta u ((T.owned' B.ids B.ids.len).getD j 0)).map fun F => F.1.comp k)
    (a := fl) (fun j hj => rfl) (fun j hj => hj.trans_le hle) (fun j hj k => by rw [hE2 j hj]; rfl) hf
  obtain ⟨n1, d1, d2, d3⟩ := addAll_spec (o := ⟨.strided 1, 1, some cn⟩) (elems := (T.owned' B.ids B.ids.len).length) (f := 2)
    (n := B.ids.len) (E := E) (fun j => j)
    (fun j _ => (bEdgeFC P T B eta u ((T.owned' B.ids B.ids.len).getD j 0)).map fun F =>
          -F.2 * bWeight T B ((T.owned' B.ids B.ids.len).getD j 0) * dt)
    (a := cn) (fun j hj => rfl) (fun j hj => hj.trans_le hle) (fun j hj k => by rw [hE2 j hj]; rfl) hc
  refine ⟨f1, n1, r1, ?_, c2, d2, a2, ?_, ?_, ?_⟩
  · unfold COp.applyAdd
    rw [hE1]
    show Option.map _ (addOutputs (T.owned' B.ids B.ids.len).length E 0 _ rhs) = _
    unfold boundaryC addOutputs
    dsimp only
    rw [a1]
    unfold addOutputs
    dsimp only [Option.bind]
    rw [c1]
    unfold addOutputs
    dsimp only [Option.bind]
    rw [d1]
    rfl
  · intro c k hk
    have h2 := a3 c k hk
    dsimp only at h2
    rw [h2]
    exact foldl_range_getD (bEdgeAdd P T B eta u c k) _ _
  · intro j k hk
    have h1 := c3 j k hk
    dsimp only at h1
    rw [h1]
    exact foldl_own _ _ _ _
  · intro j
    have h1 := d3 j 0 (by norm_num)
    dsimp only at h1
    rw [Nat.one_mul, Nat.add_zero] at h1
    rw [h1]
    exact foldl_own _ _ _ _

/-! ### All operators, one evaluation after the other -/

/-- The operator of boundary `B` with the contents `Φ` of its vector of fluxes. -/
def BOpReady (P : FlowParams) (T : CTables) (eta : Arr ℝ) (Φ : Bnd → ℕ → ℕ → Num) (B : Bnd) (op : COp) : Prop :=
  ∃ g o fl cn, BoundaryReady T B g o ∧ fl.len = 3 * B.ids.len ∧ cn.len = 1 * B.ids.len ∧
    (∀ j k, k < 3 → fl.val (3 * j + k) = Φ B j k) ∧ op = boundaryC P B (T.owned' B.ids B.ids.len).length g o eta fl cn

/-- The composite operator, with the contents `Φ` of the vectors of boundary fluxes. -/
def OpsReady (P : FlowParams) (T : CTables) (eta : Arr ℝ) (Bs : List Bnd) (Φ : Bnd → ℕ → ℕ → Num) (ops : List COp) : Prop :=
  ∃ g o fl cn bops, InteriorReady T g o ∧ fl.len = 3 * T.numOwnedInternal ∧ cn.len = 2 * T.numOwnedInternal ∧
    ops = interiorC P T.numOwnedInternal g o eta fl cn :: bops ∧ List.Forall₂ (BOpReady P T eta Φ) Bs bops

/-- the contents of the vectors of boundary fluxes after one more evaluation -/
noncomputable def plusFlux (P : FlowParams) (T : CTables) (eta u : Arr ℝ) (Φ : Bnd → ℕ → ℕ → Num) : Bnd → ℕ → ℕ → Num :=
  fun B j k => if j < (T.owned' B.ids B.ids.len).length then
    (Φ B j k).add ((bEdgeFC P T B eta u ((T.owned' B.ids B.ids.len).getD j 0)).map fun F => F.1.comp k) else Φ B j k

/-- what the edges of all boundaries add -/
noncomputable def boundariesAdd (P : FlowParams) (T : CTables) (eta u : Arr ℝ) (c k : ℕ) (s : Num) (Bs : List Bnd) : Num :=
  Bs.foldl (fun (s : Num) (B : Bnd) => (T.owned' B.ids B.ids.len).foldl (bEdgeAdd P T B eta u c k) s) s

theorem boundaries_apply (P : FlowParams) (hT : T.Valid nc n ne nv) {eta u : Arr ℝ} (he : eta.len = nv) (hu : u.len = 3 * nc)
    {Φ : Bnd → ℕ → ℕ → Num} (dt : ℝ) {Bs : List Bnd} {ops : List COp} (h : List.Forall₂ (BOpReady P T eta Φ) Bs ops) :
    (∀ B ∈ Bs, B.Valid ne) → ∀ {rhs : Arr Num}, rhs.len = 3 * nc →
    ∃ ops' rhs', compositeAdd dt u ops rhs = some (ops', rhs') ∧ List.Forall₂ (BOpReady P T eta (plusFlux P T eta u Φ)) Bs ops' ∧
      rhs'.len = 3 * nc ∧ ∀ c k, k < 3 → rhs'.val (3 * c + k) = boundariesAdd P T eta u c k (rhs.val (3 * c + k)) Bs := by
  induction h with
  | nil => intro _ rhs hr; exact ⟨[], rhs, rfl, .nil, hr, fun c k _ => rfl⟩
  | @cons B op Bs ops h1 h2 ih =>
    intro hB rhs hr
    obtain ⟨g, o, fl, cn, hR, hf, hc, hΦ, rfl⟩ := h1
    obtain ⟨fl', cn', r1, e1, e2, e3, e4, e5, e6, -⟩ := boundary_apply P hT (hB B List.mem_cons_self) hR he hu hf hc hr dt
    obtain ⟨ops', r2, i1, i2, i3, i4⟩ := ih (fun B' h' => hB B' (List.mem_cons_of_mem _ h')) (e4.trans hr)
    refine ⟨_ :: ops', r2, ?_, .cons ⟨g, o, fl', cn', hR, e2.trans hf, e3.trans hc, ?_, rfl⟩ i2, i3, ?_⟩
    · unfold compositeAdd
      rw [e1]
      show Option.map _ (compositeAdd dt u ops r1) = _
      rw [i1]
      rfl
    · intro j k hk
      rw [e6 j k hk]
      unfold plusFlux
      rw [hΦ j k hk]
    · intro c k hk
      rw [i4 c k hk, e5 c k hk]
      rfl

theorem evaluation_spec (P : FlowParams) (hT : T.Valid nc n ne nv) {eta u : Arr ℝ} (he : eta.len = nv) (hu : u.len = 3 * nc)
    {Φ : Bnd → ℕ → ℕ → Num} (dt : ℝ) {Bs : List Bnd} {ops : List COp} (hB : ∀ B ∈ Bs, B.Valid ne) (h : OpsReady P T eta Bs Φ ops) :
    ∃ ops' rhs', fluxEvaluationC nc dt u ops = some (ops', rhs') ∧ OpsReady P T eta Bs (plusFlux P T eta u Φ) ops' ∧
      rhs'.len = 3 * nc ∧ ∀ c k, k < 3 → rhs'.val (3 * c + k) = boundariesAdd P T eta u c k
        ((T.owned' T.internal T.internal.len).foldl (edgeAdd P T eta u c k) (some 0)) Bs := by
  obtain ⟨g, o, fl, cn, bops, hR, hf, hc, rfl, hb⟩ := h
  obtain ⟨fl', cn', r1, e1, e2, e3, e4, e5, -⟩ := interior_apply P hT hR he hu hf hc
    (rhs := Arr.calloc (3 * nc) (some 0)) rfl dt
  obtain ⟨ops', r2, i1, i2, i3, i4⟩ := boundaries_apply P hT he hu dt hb hB e4
  refine ⟨_ :: ops', r2, ?_, ⟨g, o, fl', cn', ops', hR, e2.trans hf, e3.trans hc, rfl, i2⟩, i3, ?_⟩
  · unfold fluxEvaluationC compositeAdd
    rw [e1]
    show Option.map _ (compositeAdd dt u bops r1) = _
    rw [i1]
    rfl
  · intro c k hk
    rw [i4 c k hk, e5 c k hk]
    rfl

theorem createBoundariesC_spec (P : FlowParams) (hT : T.Valid nc n ne nv) (eta : Arr ℝ) : ∀ Bs : List Bnd, (∀ B ∈ Bs, B.Valid ne) →
    ∃ ops, createBoundariesC P T eta Bs = some ops ∧ List.Forall₂ (BOpReady P T eta fun _ _ _ => some 0) Bs ops := by
  intro Bs
  induction Bs with
  | nil => intro _; exact ⟨[], rfl, .nil⟩
  | cons B Bs ih =>
    intro hB
    obtain ⟨g, o, h1, h2⟩ := createBoundaryC_spec P hT (hB B List.mem_cons_self) eta
    obtain ⟨ops, h3, h4⟩ := ih fun B' h' => hB B' (List.mem_cons_of_mem _ h')
    refine ⟨_ :: ops, ?_, .cons ⟨g, o, Arr.calloc (3 * B.ids.len) (some 0), Arr.calloc (1 * B.ids.len) (some 0), h1, rfl, rfl,
      fun _ _ _ => rfl, rfl⟩ h4⟩
    unfold createBoundariesC
    rw [h2]
    show Option.map _ (createBoundariesC P T eta Bs) = _
    rw [h3]
    rfl

theorem createFluxC_spec (P : FlowParams) (hT : T.Valid nc n ne nv) (eta : Arr ℝ) {Bs : List Bnd} (hB : ∀ B ∈ Bs, B.Valid ne) :
    ∃ ops, createFluxC P T eta Bs = some ops ∧ OpsReady P T eta Bs (fun _ _ _ => some 0) ops := by
  obtain ⟨g, o, h1, h2⟩ := createInteriorC_spec P hT eta
  obtain ⟨bops, h3, h4⟩ := createBoundariesC_spec P hT eta Bs hB
  refine ⟨_ :: bops, ?_, g, o, Arr.calloc (3 * T.numOwnedInternal) (some 0), Arr.calloc (2 * T.numOwnedInternal) (some 0), bops, h1,
    rfl, rfl, rfl, h4⟩
  unfold createFluxC
  rw [h2]
  show Option.map _ (createBoundariesC P T eta Bs) = _
  rw [h3]
  rfl

/-- the contents of the vectors of boundary fluxes after the evaluations of a list -/
noncomputable def plusFluxes (P : FlowParams) (T : CTables) (eta : Arr ℝ) (l : List (ℝ × Arr ℝ)) (Φ : Bnd → ℕ → ℕ → Num) :
    Bnd → ℕ → ℕ → Num := l.foldl (fun Φ s => plusFlux P T eta s.2 Φ) Φ

theorem evaluations_spec (P : FlowParams) (hT : T.Valid nc n ne nv) {eta : Arr ℝ} (he : eta.len = nv) {Bs : List Bnd}
    (hB : ∀ B ∈ Bs, B.Valid ne) : ∀ (l : List (ℝ × Arr ℝ)) (Φ : Bnd → ℕ → ℕ → Num) (ops : List COp), (∀ s ∈ l, s.2.len = 3 * nc) →
    OpsReady P T eta Bs Φ ops → ∃ ops', fluxEvaluationsC nc l ops = some ops' ∧ OpsReady P T eta Bs (plusFluxes P T eta l Φ) ops' := by
  intro l
  induction l with
  | nil => intro Φ ops _ h; exact ⟨ops, rfl, h⟩
  | cons s l ih =>
    intro Φ ops hl h
    obtain ⟨ops1, r, e1, e2, -⟩ := evaluation_spec P hT he (hl s List.mem_cons_self) s.1 hB h
    obtain ⟨ops2, i1, i2⟩ := ih _ ops1 (fun s' h' => hl s' (List.mem_cons_of_mem _ h')) e2
    refine ⟨ops2, ?_, i2⟩
    obtain ⟨dt, u⟩ := s
    show (fluxEvaluationC nc dt u ops).bind _ = _
    rw [e1]
    exact i1

/-- what an evaluation does to the vectors of Courant numbers -/
theorem boundaries_courant (P : FlowParams) (hT : T.Valid nc n ne nv) {eta u : Arr ℝ} (he : eta.len = nv) (hu : u.len = 3 * nc)
    {Φ : Bnd → ℕ → ℕ → Num} (dt : ℝ) {Bs : List Bnd} {ops : List COp} (h : List.Forall₂ (BOpReady P T eta Φ) Bs ops) :
    (∀ B ∈ Bs, B.Valid ne) → ∀ {rhs : Arr Num}, rhs.len = 3 * nc → ∀ {ops' : List COp} {rhs' : Arr Num},
    compositeAdd dt u ops rhs = some (ops', rhs') → ∀ (b : ℕ) (B : Bnd), Bs[b]? = some B → ∃ cn cn',
      ops[b]?.bind (fun op => op.outVec 2) = some cn ∧ ops'[b]?.bind (fun op => op.outVec 2) = some cn' ∧
      ∀ j < (T.owned' B.ids B.ids.len).length, cn'.val j = (cn.val j).add
        ((bEdgeFC P T B eta u ((T.owned' B.ids B.ids.len).getD j 0)).map fun F =>
          -F.2 * bWeight T B ((T.owned' B.ids B.ids.len).getD j 0) * dt) := by
  induction h with
  | nil => intro _ rhs hr ops' rhs' _ b B hb; cases hb
  | @cons B op Bs ops h1 h2 ih =>
    intro hB rhs hr ops' rhs' hc b B' hb
    obtain ⟨g, o, fl, cn, hR, hf, hcn, hΦ, rfl⟩ := h1
    obtain ⟨fl', cn', r1, e1, e2, e3, e4, e5, e6, e7⟩ := boundary_apply P hT (hB B List.mem_cons_self) hR he hu hf hcn hr dt
    unfold compositeAdd at hc
    rw [e1] at hc
    obtain ⟨⟨ops1, r2⟩, h3, h4⟩ := Option.map_eq_some_iff.mp hc
    obtain ⟨rfl, rfl⟩ := Prod.mk.inj h4
    cases b with
    | zero =>
      obtain rfl : B = B' := Option.some.inj hb
      refine ⟨cn, cn', rfl, rfl, fun j hj => ?_⟩
      rw [e7 j, if_pos hj]
    | succ b => exact ih (fun B' h' => hB B' (List.mem_cons_of_mem _ h')) (e4.trans hr) h3 b B' hb

theorem evaluation_courant (P : FlowParams) (hT : T.Valid nc n ne nv) {eta u : Arr ℝ} (he : eta.len = nv) (hu : u.len = 3 * nc)
    {Φ : Bnd → ℕ → ℕ → Num} (dt : ℝ) {Bs : List Bnd} {ops : List COp} (hB : ∀ B ∈ Bs, B.Valid ne) (h : OpsReady P T eta Bs Φ ops)
    {ops' : List COp} {rhs' : Arr Num} (hev : fluxEvaluationC nc dt u ops = some (ops', rhs')) :
    (∃ cn cn', ops[0]?.bind (fun op => op.outVec 3) = some cn ∧ ops'[0]?.bind (fun op => op.outVec 3) = some cn' ∧
      ∀ j < T.numOwnedInternal, ∀ k < 2, cn'.val (2 * j + k) = (cn.val (2 * j + k)).add
        (edgeCourant P T eta u dt (T.internal.val ((T.owned' T.internal T.internal.len).getD j 0)) k)) ∧
    ∀ (b : ℕ) (B : Bnd), Bs[b]? = some B → ∃ cn cn',
      ops[b + 1]?.bind (fun op => op.outVec 2) = some cn ∧ ops'[b + 1]?.bind (fun op => op.outVec 2) = some cn' ∧
      ∀ j < (T.owned' B.ids B.ids.len).length, cn'.val j = (cn.val j).add
        ((bEdgeFC P T B eta u ((T.owned' B.ids B.ids.len).getD j 0)).map fun F =>
          -F.2 * bWeight T B ((T.owned' B.ids B.ids.len).getD j 0) * dt) := by
  obtain ⟨g, o, fl, cn, bops, hR, hf, hc, rfl, hb⟩ := h
  obtain ⟨fl', cn', r1, e1, e2, e3, e4, e5, e6, e7⟩ := interior_apply P hT hR he hu hf hc
    (rhs := Arr.calloc (3 * nc) (some 0)) rfl dt
  unfold fluxEvaluationC compositeAdd at hev
  rw [e1] at hev
  obtain ⟨⟨ops1, r2⟩, h3, h4⟩ := Option.map_eq_some_iff.mp hev
  obtain ⟨rfl, rfl⟩ := Prod.mk.inj h4
  exact ⟨⟨cn, cn', rfl, rfl, e7⟩, boundaries_courant P hT he hu dt hb hB e4 h3⟩

/-- The accumulated fluxes are `A`. -/
def AccIs (A : Bnd → ℕ → ℕ → Num) (B : Bnd) (a : Arr Num) : Prop :=
  a.len = 3 * B.ids.len ∧ ∀ j k, k < 3 → a.val (3 * j + k) = A B j k

theorem accumulate_spec {P : FlowParams} {eta : Arr ℝ} {Φ A : Bnd → ℕ → ℕ → Num} (dt : ℝ) {Bs : List Bnd} {ops : List COp}
    (h : List.Forall₂ (BOpReady P T eta Φ) Bs ops) : ∀ {acc : List (Arr Num)}, List.Forall₂ (AccIs A) Bs acc →
    ∃ acc', accumulateC dt ops acc = some acc' ∧
      List.Forall₂ (AccIs fun B j k => (A B j k).add ((Φ B j k).scale dt)) Bs acc' := by
  induction h with
  | nil => intro acc ha; cases ha; exact ⟨[], rfl, .nil⟩
  | @cons B op Bs ops h1 h2 ih =>
    intro acc ha
    cases ha with
    | @cons _ a _ l ha hl =>
      obtain ⟨acc', i1, i2⟩ := ih hl
      obtain ⟨g, o, fl, cn, hR, hf, hc, hΦ, rfl⟩ := h1
      refine ⟨axpyC a dt fl :: acc', ?_, .cons ?_ i2⟩
      · unfold accumulateC
        show Option.map _ (accumulateC dt ops l) = _
        rw [i1]
        rfl
      · refine ⟨ha.1, fun j k hk => ?_⟩
        show (a.val (3 * j + k)).add ((fl.val (3 * j + k)).scale dt) = _
        rw [ha.2 j k hk, hΦ j k hk]

/-- the contents of the vectors of boundary fluxes and the accumulated fluxes after the steps of a list -/
noncomputable def eulerAcc (P : FlowParams) (T : CTables) (eta : Arr ℝ) : List (ℝ × Arr ℝ) → (Bnd → ℕ → ℕ → Num) →
    (Bnd → ℕ → ℕ → Num) → Bnd → ℕ → ℕ → Num
  | [], _, A => A
  | (dt, u) :: l, Φ, A => eulerAcc P T eta l (plusFlux P T eta u Φ)
      fun B j k => (A B j k).add ((plusFlux P T eta u Φ B j k).scale dt)

theorem eulerSteps_spec (P : FlowParams) (hT : T.Valid nc n ne nv) {eta : Arr ℝ} (he : eta.len = nv) {Bs : List Bnd}
    (hB : ∀ B ∈ Bs, B.Valid ne) : ∀ (l : List (ℝ × Arr ℝ)) (Φ A : Bnd → ℕ → ℕ → Num) (ops : List COp) (acc : List (Arr Num)),
    (∀ s ∈ l, s.2.len = 3 * nc) → OpsReady P T eta Bs Φ ops → List.Forall₂ (AccIs A) Bs acc →
    ∃ ops' acc', eulerStepsC nc l ops acc = some (ops', acc') ∧ List.Forall₂ (AccIs (eulerAcc P T eta l Φ A)) Bs acc' := by
  intro l
  induction l with
  | nil => intro Φ A ops acc _ h ha; exact ⟨ops, acc, rfl, ha⟩
  | cons s l ih =>
    intro Φ A ops acc hl h ha
    obtain ⟨ops1, r, e1, e2, -⟩ := evaluation_spec P hT he (hl s List.mem_cons_self) s.1 hB h
    obtain ⟨g, o, fl, cn, bops, hR, hf, hc, rfl, hb⟩ := id e2
    obtain ⟨acc1, a1, a2⟩ := accumulate_spec s.1 hb ha
    obtain ⟨ops2, acc2, i1, i2⟩ := ih _ _ _ acc1 (fun s' h' => hl s' (List.mem_cons_of_mem _ h')) e2 a2
    refine ⟨ops2, acc2, ?_, i2⟩
    obtain ⟨dt, u⟩ := s
    show (fluxEvaluationC nc dt u ops).bind _ = _
    rw [e1]
    show (accumulateC dt bops acc).bind _ = _
    rw [a1]
    exact i1

/-! ### The model that treats edges one by one -/

/-- The mesh of `Ceed.lean`: the internal and boundary edges that the process owns. -/
noncomputable def ceedMeshOf (T : CTables) (Bs : List Bnd) (nc : ℕ) : PMesh where
  numCells := nc
  area := T.area.val
  owned := T.owned.val
  l2o := T.l2o.val
  internal := (T.owned' T.internal T.internal.len).map fun e =>
    ⟨T.leftOf (T.internal.val e), T.rightOf (T.internal.val e), T.elen.val (T.internal.val e), T.sn.val (T.internal.val e),
      T.cn.val (T.internal.val e)⟩
  boundary := Bs.flatMap fun B => (T.owned' B.ids B.ids.len).map fun e =>
    ⟨T.leftOf (B.ids.val e), T.elen.val (B.ids.val e), T.sn.val (B.ids.val e), T.cn.val (B.ids.val e), B.cond e⟩
  dzdx := fun _ => 0
  dzdy := fun _ => 0
  zc := fun _ => 0

/-- without BS2002 the elevations at vertices are those of the bed and the depth does not change along an edge -/
theorem computeDhv_bed (a b : ℝ) : computeDhv a b a b = 0 := by simp [computeDhv]

theorem internal_entry (P : FlowParams) (T : CTables) (Bs : List Bnd) (nc : ℕ) (eta u : Arr ℝ) (heta : eta.val = T.vz.val) (o i : ℕ) :
    ∀ (l : List ℕ) (f g : ℕ → Flux), (∀ e ∈ l, T.cellIds.val (2 * T.internal.val e + 1) ≠ -1) →
      (l.map fun e => (⟨T.leftOf (T.internal.val e), T.rightOf (T.internal.val e), T.elen.val (T.internal.val e),
        T.sn.val (T.internal.val e), T.cn.val (T.internal.val e)⟩ : IEdge)).foldlM
          (ceedEdge P (ceedMeshOf T Bs nc) (stateAt u)) f = some g →
      l.foldl (edgeAdd P T eta u o i) (some ((f o).comp i)) = some ((g o).comp i) := by
  intro l
  induction l with
  | nil => intro f g _ h; cases h; rfl
  | cons e l ih =>
    intro f g hl h
    obtain ⟨f', h1, h2⟩ := foldlM_cons_some h
    rw [List.foldl_cons, ← ih f' g (fun e' h' => hl e' (List.mem_cons_of_mem _ h')) h2]
    congr 1
    unfold ceedEdge at h1
    dsimp only at h1
    rw [rightOf_some (hl e List.mem_cons_self)] at h1
    dsimp only at h1
    obtain ⟨F, hF, hf'⟩ := Option.map_eq_some_iff.mp h1
    have hE : edgeFC P T eta u (T.internal.val e) = some F := by
      unfold edgeFC
      rw [heta, computeDhv_bed]
      exact hF
    unfold edgeAdd
    rw [hE, ← hf', addAt_comp, addAt_comp]
    rfl

theorem internal_nan (P : FlowParams) (T : CTables) (Bs : List Bnd) (nc : ℕ) (eta u : Arr ℝ) (heta : eta.val = T.vz.val) :
    ∀ (l : List ℕ) (f : ℕ → Flux), (∀ e ∈ l, T.cellIds.val (2 * T.internal.val e + 1) ≠ -1) →
      (l.map fun e => (⟨T.leftOf (T.internal.val e), T.rightOf (T.internal.val e), T.elen.val (T.internal.val e),
        T.sn.val (T.internal.val e), T.cn.val (T.internal.val e)⟩ : IEdge)).foldlM
          (ceedEdge P (ceedMeshOf T Bs nc) (stateAt u)) f = none →
      ∃ e ∈ l, edgeFC P T eta u (T.internal.val e) = none := by
  intro l
  induction l with
  | nil => intro f _ h; cases h
  | cons e l ih =>
    intro f hl h
    rw [List.map_cons, List.foldlM_cons] at h
    cases h1 : ceedEdge P (ceedMeshOf T Bs nc) (stateAt u) f ⟨T.leftOf (T.internal.val e), T.rightOf (T.internal.val e),
        T.elen.val (T.internal.val e), T.sn.val (T.internal.val e), T.cn.val (T.internal.val e)⟩ with
    | some f' =>
      rw [h1] at h
      obtain ⟨e', h3, h4⟩ := ih f' (fun e' h' => hl e' (List.mem_cons_of_mem _ h')) h
      exact ⟨e', List.mem_cons_of_mem _ h3, h4⟩
    | none =>
      refine ⟨e, List.mem_cons_self, ?_⟩
      unfold ceedEdge at h1
      dsimp only at h1
      rw [rightOf_some (hl e List.mem_cons_self)] at h1
      dsimp only at h1
      have h5 := Option.map_eq_none_iff.mp h1
      unfold edgeFC
      rw [heta, computeDhv_bed]
      exact h5

theorem Num.none_add (a : Num) : Num.add none a = none := rfl

theorem Num.add_none (a : Num) : Num.add a none = none := by cases a <;> rfl

theorem foldl_none {α : Type} (f : Num → α → Num) (hf : ∀ a, f none a = none) : ∀ l : List α, l.foldl f none = none := by
  intro l
  induction l with
  | nil => rfl
  | cons a l ih => rw [List.foldl_cons, hf, ih]

/-- an element that makes the result NaN -/
theorem foldl_nan {α : Type} (f : Num → α → Num) (hf : ∀ a, f none a = none) {e : α} (he : ∀ s, f s e = none) :
    ∀ (l : List α) (s : Num), e ∈ l → l.foldl f s = none := by
  intro l
  induction l with
  | nil => intro s h; cases h
  | cons a l ih =>
    intro s h
    rcases List.mem_cons.mp h with rfl | h
    · rw [List.foldl_cons, he, foldl_none f hf]
    · rw [List.foldl_cons]; exact ih _ h

theorem edgeAdd_none (P : FlowParams) (T : CTables) (eta u : Arr ℝ) (c k e : ℕ) : edgeAdd P T eta u c k none e = none := by
  unfold edgeAdd
  rw [Num.none_add, Num.none_add]

theorem bEdgeAdd_none (P : FlowParams) (T : CTables) (B : Bnd) (eta u : Arr ℝ) (c k e : ℕ) : bEdgeAdd P T B eta u c k none e = none :=
  rfl

theorem boundariesAdd_none (P : FlowParams) (T : CTables) (eta u : Arr ℝ) (c k : ℕ) (Bs : List Bnd) :
    boundariesAdd P T eta u c k none Bs = none :=
  foldl_none _ (fun B => foldl_none _ (fun e => bEdgeAdd_none P T B eta u c k e) _) Bs

theorem edgeAdd_nan {P : FlowParams} {T : CTables} {eta u : Arr ℝ} {e : ℕ} (h : edgeFC P T eta u (T.internal.val e) = none) (k : ℕ) (s : Num) :
    edgeAdd P T eta u (T.l2o.val (T.leftOf (T.internal.val e))) k s e = none := by
  unfold edgeAdd
  rw [h]
  unfold recv
  rw [if_pos ⟨rfl, rfl⟩]
  show Num.add (Num.add s none) _ = none
  rw [Num.add_none, Num.none_add]

theorem bEdgeAdd_nan {P : FlowParams} {T : CTables} {B : Bnd} {eta u : Arr ℝ} {e : ℕ} (h : bEdgeFC P T B eta u e = none) (k : ℕ) (s : Num) :
    bEdgeAdd P T B eta u (T.l2o.val (T.leftOf (B.ids.val e))) k s e = none := by
  unfold bEdgeAdd
  rw [h]
  unfold recv
  rw [if_pos ⟨rfl, rfl⟩]
  exact Num.add_none s

theorem boundaryFluxDhv_zero (P : FlowParams) (bc : BCond) (q : Cons) (sn cn : ℝ) :
    boundaryFluxDhv P bc q sn cn 0 = boundaryFluxCeed P bc q sn cn := by
  cases bc <;> rfl

theorem bEdgeFC_eq (P : FlowParams) (T : CTables) (B : Bnd) {eta u : Arr ℝ} (heta : eta.val = T.vz.val) (e : ℕ) :
    bEdgeFC P T B eta u e = boundaryFluxCeed P (B.cond e) (stateAt u (T.leftOf (B.ids.val e))) (T.sn.val (B.ids.val e))
      (T.cn.val (B.ids.val e)) := by
  unfold bEdgeFC
  rw [heta, computeDhv_bed, boundaryFluxDhv_zero]

theorem boundary_entry (P : FlowParams) (T : CTables) (B : Bnd) (Bs : List Bnd) (nc : ℕ) (eta u : Arr ℝ) (heta : eta.val = T.vz.val)
    (o i : ℕ) : ∀ (l : List ℕ) (f g : ℕ → Flux),
      (l.map fun e => (⟨T.leftOf (B.ids.val e), T.elen.val (B.ids.val e), T.sn.val (B.ids.val e), T.cn.val (B.ids.val e),
        B.cond e⟩ : BEdge)).foldlM (ceedBEdge P (ceedMeshOf T Bs nc) (stateAt u)) f = some g →
      l.foldl (bEdgeAdd P T B eta u o i) (some ((f o).comp i)) = some ((g o).comp i) := by
  intro l
  induction l with
  | nil => intro f g h; cases h; rfl
  | cons e l ih =>
    intro f g h
    obtain ⟨f', h1, h2⟩ := foldlM_cons_some h
    rw [List.foldl_cons, ← ih f' g h2]
    congr 1
    unfold ceedBEdge at h1
    dsimp only at h1
    obtain ⟨F, hF, hf'⟩ := Option.map_eq_some_iff.mp h1
    unfold bEdgeAdd
    rw [bEdgeFC_eq P T B heta, hF, ← hf', addAt_comp]
    rfl

theorem boundary_nan (P : FlowParams) (T : CTables) (B : Bnd) (Bs : List Bnd) (nc : ℕ) (eta u : Arr ℝ) (heta : eta.val = T.vz.val) :
    ∀ (l : List ℕ) (f : ℕ → Flux),
      (l.map fun e => (⟨T.leftOf (B.ids.val e), T.elen.val (B.ids.val e), T.sn.val (B.ids.val e), T.cn.val (B.ids.val e),
        B.cond e⟩ : BEdge)).foldlM (ceedBEdge P (ceedMeshOf T Bs nc) (stateAt u)) f = none →
      ∃ e ∈ l, bEdgeFC P T B eta u e = none := by
  intro l
  induction l with
  | nil => intro f h; cases h
  | cons e l ih =>
    intro f h
    rw [List.map_cons, List.foldlM_cons] at h
    cases h1 : ceedBEdge P (ceedMeshOf T Bs nc) (stateAt u) f ⟨T.leftOf (B.ids.val e), T.elen.val (B.ids.val e), T.sn.val (B.ids.val e),
        T.cn.val (B.ids.val e), B.cond e⟩ with
    | some f' =>
      rw [h1] at h
      obtain ⟨e', h3, h4⟩ := ih f' h
      exact ⟨e', List.mem_cons_of_mem _ h3, h4⟩
    | none =>
      refine ⟨e, List.mem_cons_self, ?_⟩
      unfold ceedBEdge at h1
      rw [bEdgeFC_eq P T B heta]
      exact Option.map_eq_none_iff.mp h1

theorem boundaries_entry (P : FlowParams) (T : CTables) (Bs' : List Bnd) (nc : ℕ) (eta u : Arr ℝ) (heta : eta.val = T.vz.val)
    (o i : ℕ) : ∀ (Bs : List Bnd) (f g : ℕ → Flux),
      (Bs.flatMap fun B => (T.owned' B.ids B.ids.len).map fun e =>
        (⟨T.leftOf (B.ids.val e), T.elen.val (B.ids.val e), T.sn.val (B.ids.val e), T.cn.val (B.ids.val e), B.cond e⟩ : BEdge)).foldlM
          (ceedBEdge P (ceedMeshOf T Bs' nc) (stateAt u)) f = some g →
      boundariesAdd P T eta u o i (some ((f o).comp i)) Bs = some ((g o).comp i) := by
  intro Bs
  induction Bs with
  | nil => intro f g h; cases h; rfl
  | cons B Bs ih =>
    intro f g h
    rw [List.flatMap_cons] at h
    obtain ⟨f', h1, h2⟩ := foldlM_append_some h
    unfold boundariesAdd
    rw [List.foldl_cons, boundary_entry P T B Bs' nc eta u heta o i _ f f' h1]
    exact ih f' g h2

theorem boundaries_nan (P : FlowParams) (T : CTables) (Bs' : List Bnd) (nc : ℕ) (eta u : Arr ℝ) (heta : eta.val = T.vz.val) :
    ∀ (Bs : List Bnd) (f : ℕ → Flux),
      (Bs.flatMap fun B => (T.owned' B.ids B.ids.len).map fun e =>
        (⟨T.leftOf (B.ids.val e), T.elen.val (B.ids.val e), T.sn.val (B.ids.val e), T.cn.val (B.ids.val e), B.cond e⟩ : BEdge)).foldlM
          (ceedBEdge P (ceedMeshOf T Bs' nc) (stateAt u)) f = none →
      ∃ B ∈ Bs, ∃ e ∈ T.owned' B.ids B.ids.len, bEdgeFC P T B eta u e = none := by
  intro Bs
  induction Bs with
  | nil => intro f h; cases h
  | cons B Bs ih =>
    intro f h
    rw [List.flatMap_cons, List.foldlM_append] at h
    cases h1 : ((T.owned' B.ids B.ids.len).map fun e => (⟨T.leftOf (B.ids.val e), T.elen.val (B.ids.val e), T.sn.val (B.ids.val e),
        T.cn.val (B.ids.val e), B.cond e⟩ : BEdge)).foldlM (ceedBEdge P (ceedMeshOf T Bs' nc) (stateAt u)) f with
    | some f' =>
      rw [h1] at h
      obtain ⟨B', h3, h4⟩ := ih f' h
      exact ⟨B', List.mem_cons_of_mem _ h3, h4⟩
    | none => exact ⟨B, List.mem_cons_self, boundary_nan P T B Bs' nc eta u heta _ f h1⟩

/-- the result of an evaluation in terms of the model that treats edges one by one -/
theorem divergence_entry (P : FlowParams) (hT : T.Valid nc n ne nv) (Bs : List Bnd) {eta u : Arr ℝ} (heta : eta.val = T.vz.val)
    {f : ℕ → Flux} (h : ceedDivergence P false (ceedMeshOf T Bs nc) (stateAt u) = some f) (c k : ℕ) :
    boundariesAdd P T eta u c k ((T.owned' T.internal T.internal.len).foldl (edgeAdd P T eta u c k) (some 0)) Bs =
      some ((f c).comp k) := by
  unfold ceedDivergence at h
  obtain ⟨f1, h1, h2⟩ := Option.bind_eq_some_iff.mp h
  have h3 := internal_entry P T Bs nc eta u heta c k _ _ f1 (fun e he => hT.two e (owned'_mem he).1 (owned'_mem he).2) h1
  have h4 : (Flux.zero.comp k) = 0 := comp_zero k
  rw [h4] at h3
  rw [h3]
  exact boundaries_entry P T Bs nc eta u heta c k Bs f1 f h2

theorem divergence_nan (P : FlowParams) (hT : T.Valid nc n ne nv) {Bs : List Bnd} (hB : ∀ B ∈ Bs, B.Valid ne) {eta u : Arr ℝ}
    (heta : eta.val = T.vz.val) (h : ceedDivergence P false (ceedMeshOf T Bs nc) (stateAt u) = none) :
    ∃ c < nc, ∀ k, boundariesAdd P T eta u c k ((T.owned' T.internal T.internal.len).foldl (edgeAdd P T eta u c k) (some 0)) Bs = none := by
  unfold ceedDivergence at h
  cases h1 : (ceedMeshOf T Bs nc).internal.foldlM (ceedEdge P (ceedMeshOf T Bs nc) (stateAt u)) (fun _ => Flux.zero) with
  | none =>
    obtain ⟨e, he, hn⟩ := internal_nan P T Bs nc eta u heta _ _ (fun e he => hT.two e (owned'_mem he).1 (owned'_mem he).2) h1
    refine ⟨_, hT.l2o_lt _ (hT.left_lt (hT.base.ids e (owned'_mem he).1)), fun k => ?_⟩
    rw [foldl_nan _ (fun a => edgeAdd_none P T eta u _ k a) (fun s => edgeAdd_nan hn k s) _ _ he, boundariesAdd_none]
  | some f1 =>
    have h2 : (ceedMeshOf T Bs nc).boundary.foldlM (ceedBEdge P (ceedMeshOf T Bs nc) (stateAt u)) f1 = none := by
      have h3 : ((ceedMeshOf T Bs nc).internal.foldlM (ceedEdge P (ceedMeshOf T Bs nc) (stateAt u)) (fun _ => Flux.zero)).bind
        (fun f => (ceedMeshOf T Bs nc).boundary.foldlM (ceedBEdge P (ceedMeshOf T Bs nc) (stateAt u)) f) = none := h
      rw [h1] at h3
      exact h3
    obtain ⟨B, hBm, e, he, hn⟩ := boundaries_nan P T Bs nc eta u heta Bs f1 h2
    refine ⟨_, hT.l2o_lt _ (hT.left_lt ((hB B hBm).ids e (owned'_mem he).1)), fun k => ?_⟩
    exact foldl_nan _ (fun B => foldl_none _ (fun e => bEdgeAdd_none P T B eta u _ k e) _)
      (fun s => foldl_nan _ (fun a => bEdgeAdd_none P T B eta u _ k a) (fun s => bEdgeAdd_nan hn k s) _ s he) _ _ hBm

/-! ### Rows of the vectors of boundary fluxes -/

theorem plusFluxes_eq (P : FlowParams) (T : CTables) (eta : Arr ℝ) (B : Bnd) (j k : ℕ) : ∀ (l : List (ℝ × Arr ℝ)) (Φ : Bnd → ℕ → ℕ → Num),
    plusFluxes P T eta l Φ B j k = if j < (T.owned' B.ids B.ids.len).length then
      l.foldl (fun (a : Num) (s : ℝ × Arr ℝ) => a.add
        ((bEdgeFC P T B eta s.2 ((T.owned' B.ids B.ids.len).getD j 0)).map fun F => F.1.comp k)) (Φ B j k) else Φ B j k := by
  intro l
  induction l with
  | nil => intro Φ; simp [plusFluxes]
  | cons s l ih =>
    intro Φ
    show plusFluxes P T eta l (plusFlux P T eta s.2 Φ) B j k = _
    rw [ih]
    unfold plusFlux
    split
    · rfl
    · rfl

theorem plusFluxes_append (P : FlowParams) (T : CTables) (eta : Arr ℝ) (l : List (ℝ × Arr ℝ)) (s : ℝ × Arr ℝ) (Φ : Bnd → ℕ → ℕ → Num) :
    plusFluxes P T eta (l ++ [s]) Φ = plusFlux P T eta s.2 (plusFluxes P T eta l Φ) := by
  unfold plusFluxes
  rw [List.foldl_append]
  rfl

theorem eulerAcc_append (P : FlowParams) (T : CTables) (eta : Arr ℝ) (s : ℝ × Arr ℝ) (B : Bnd) (j k : ℕ) :
    ∀ (l : List (ℝ × Arr ℝ)) (Φ A : Bnd → ℕ → ℕ → Num), eulerAcc P T eta (l ++ [s]) Φ A B j k =
      (eulerAcc P T eta l Φ A B j k).add ((plusFlux P T eta s.2 (plusFluxes P T eta l Φ) B j k).scale s.1) := by
  intro l
  induction l with
  | nil => intro Φ A; obtain ⟨dt, u⟩ := s; rfl
  | cons t l ih =>
    intro Φ A
    obtain ⟨dt, u⟩ := t
    show eulerAcc P T eta (l ++ [s]) _ _ B j k = _
    rw [ih]
    rfl

/-- the number of an owned edge of the list among the owned ones is the number of owned ones before it -/
theorem owned'_getD (T : CTables) (ids : Arr ℕ) {e : ℕ} (ho : T.own ids e = true) : ∀ N, e < N →
    (T.owned' ids e).length < (T.owned' ids N).length ∧ (T.owned' ids N).getD (T.owned' ids e).length 0 = e := by
  intro N
  induction N with
  | zero => intro h; exact absurd h (Nat.not_lt_zero _)
  | succ N ih =>
    intro h
    rw [owned'_succ]
    rcases Nat.lt_or_ge e N with h1 | h1
    · obtain ⟨a, b⟩ := ih h1
      refine ⟨by rw [List.length_append]; omega, ?_⟩
      rw [List.getD_eq_getElem?_getD, List.getElem?_append_left a, ← List.getD_eq_getElem?_getD, b]
    · obtain rfl : e = N := by omega
      rw [if_pos ho]
      exact ⟨by rw [List.length_append]; simp, by simp⟩

theorem owned'_all (T : CTables) (ids : Arr ℕ) : ∀ N, (∀ e < N, T.own ids e = true) → (T.owned' ids N).length = N := by
  intro N h
  unfold CTables.owned'
  rw [List.filter_eq_self.mpr (fun e he => h e (List.mem_range.mp he)), List.length_range]

theorem forall₂_getElem? {α β : Type} {R : α → β → Prop} {l : List α} {l' : List β} (h : List.Forall₂ R l l') :
    ∀ {i : ℕ} {a : α}, l[i]? = some a → ∃ b, l'[i]? = some b ∧ R a b := by
  induction h with
  | nil => intro i a h; simp at h
  | @cons x y l l' h1 h2 ih =>
    intro i a h
    cases i with
    | zero => obtain rfl : x = a := by simpa using h
              exact ⟨y, rfl, h1⟩
    | succ i => exact ih (by simpa using h)

theorem forall₂_accum (Bs : List Bnd) : List.Forall₂ (AccIs fun _ _ _ => some 0) Bs (createAccumC Bs) := by
  unfold createAccumC
  rw [List.forall₂_map_right_iff]
  exact List.forall₂_same.mpr fun B _ => ⟨rfl, fun _ _ _ => rfl⟩

end RDy
