import Verif.Model.Packed
import Verif.Lemmas.BatchedRun
import Mathlib.Tactic

/-! Lemmas about the second-order interior operator with packed arrays. -/

namespace RDy

/-! ### Flat arrays -/

theorem bump_some {a : Arr ℝ} {i : ℕ} (v : ℝ) (h : i < a.len) : a.bump i v = some ⟨a.len, RDy.bump a.val i v⟩ := by
  unfold Arr.bump
  rw [Arr.get_some h]
  show a.put i (a.val i + v) = _
  rw [Arr.put_some _ h]
  congr 2
  funext j
  unfold RDy.bump
  by_cases hj : j = i
  · subst hj; rw [Function.update_self, if_pos rfl]
  · rw [Function.update_of_ne hj, if_neg hj]

theorem bump_mk {l : ℕ} {val : ℕ → ℝ} {i : ℕ} (v : ℝ) (h : i < l) :
    Arr.bump ⟨l, val⟩ i v = some ⟨l, RDy.bump val i v⟩ := bump_some v h

theorem rflat_inj {s o i o' i' : ℕ} (hi : i < s) (hi' : i' < s) : o * s + i = o' * s + i' ↔ o = o' ∧ i = i' := by
  rw [Nat.mul_comm o, Nat.mul_comm o']; exact flat_inj hi hi'

theorem rflat_lt {s o i n : ℕ} (ho : o < n) (hi : i < s) : o * s + i < n * s := by
  rw [Nat.mul_comm o, Nat.mul_comm n]; exact flat_lt ho hi

theorem bump_flat {s : ℕ} (a : ℕ → ℝ) (c0 j' : ℕ) (v : ℝ) (c j : ℕ) (hj : j < s) (hj' : j' < s) :
    RDy.bump a (c0 * s + j') v (c * s + j) = if j = j' ∧ c = c0 then a (c * s + j) + v else a (c * s + j) := by
  unfold RDy.bump
  by_cases h : j = j' ∧ c = c0
  · rw [if_pos h, if_pos ((rflat_inj hj hj').mpr ⟨h.2, h.1⟩)]
  · rw [if_neg h, if_neg]
    intro hh
    obtain ⟨h1, h2⟩ := (rflat_inj hj hj').mp hh
    exact h ⟨h2, h1⟩

theorem bump_flat_pt {s : ℕ} {a : ℕ → ℝ} {c0 j : ℕ} {v : ℝ} {c : ℕ} (hj : j < s) {f : ℕ → ℝ} (h : a (c * s + j) = f c) :
    RDy.bump a (c0 * s + j) v (c * s + j) = RDy.bump f c0 v c := by
  rw [bump_flat _ _ _ _ _ _ hj hj]
  unfold RDy.bump
  by_cases hc : c = c0
  · rw [if_pos ⟨rfl, hc⟩, if_pos hc, h]
  · rw [if_neg (fun q => hc q.2), if_neg hc, h]

theorem bump_flat_ne {s : ℕ} {a : ℕ → ℝ} {c0 j j' : ℕ} {v : ℝ} {c : ℕ} (hj : j < s) (hj' : j' < s) (h : j ≠ j') :
    RDy.bump a (c0 * s + j') v (c * s + j) = a (c * s + j) := by
  rw [bump_flat _ _ _ _ _ _ hj hj', if_neg (fun q => h q.1)]

/-- writing one row of a flat array -/
theorem rrow_put {α : Type} {nd : ℕ} (G : ℕ → α) {f : Arr α} {e n : ℕ} (he : e < n) (hl : f.len = n * nd) :
    ∃ f', loopM (fun (f : Arr α) (d : ℕ) => f.put (e * nd + d) (G d)) nd f = some f' ∧ f'.len = f.len ∧
      ∀ o i, i < nd → f'.val (o * nd + i) = if o = e then G i else f.val (o * nd + i) := by
  obtain ⟨f', h1, h2, h3⟩ := loopM_inv (step := fun (f : Arr α) (d : ℕ) => f.put (e * nd + d) (G d)) (n := nd) (s := f)
    (fun k s => s.len = f.len ∧ ∀ o i, i < nd → s.val (o * nd + i) =
      if o = e ∧ i < k then G i else f.val (o * nd + i)) ⟨rfl, by intro o i _; simp⟩ (by
      rintro k hk s ⟨hsl, hsv⟩
      have hin : e * nd + k < s.len := by rw [hsl, hl]; exact rflat_lt he hk
      refine ⟨_, Arr.put_some _ hin, hsl, ?_⟩
      intro o i hi
      show Function.update s.val (e * nd + k) (G k) (o * nd + i) = _
      by_cases h : o = e ∧ i = k
      · obtain ⟨rfl, rfl⟩ := h
        rw [Function.update_self, if_pos ⟨rfl, by omega⟩]
      · rw [Function.update_of_ne (by rw [Ne, rflat_inj hi hk]; exact h), hsv o i hi]
        by_cases h2 : o = e ∧ i < k
        · rw [if_pos h2, if_pos ⟨h2.1, by omega⟩]
        · rw [if_neg h2, if_neg]
          rintro ⟨ho, hik⟩
          have : i ≠ k := fun hh => h ⟨ho, hh⟩
          exact h2 ⟨ho, by omega⟩)
  refine ⟨f', h1, h2, fun o i hi => ?_⟩
  rw [h3 o i hi]
  by_cases h : o = e
  · rw [if_pos ⟨h, hi⟩, if_pos h]
  · rw [if_neg (fun hh => h hh.1), if_neg h]

/-! ### Tables -/

/-- the first cell of internal edge `ie` -/
def GTables.L (G : GTables) (ie : ℕ) : ℕ := G.T.leftOf (G.T.internal.val ie)

/-- the second cell of internal edge `ie` -/
def GTables.R (G : GTables) (ie : ℕ) : ℕ := (G.T.cellIds.val (2 * G.T.internal.val ie + 1)).toNat

/-- whether the process owns internal edge `ie` -/
def GTables.own (G : GTables) (ie : ℕ) : Bool := G.T.edgeOwned.val (G.T.internal.val ie)

/-- the number of owned edges before internal edge `k`: its place in packed order -/
def GTables.pos (G : GTables) (k : ℕ) : ℕ := ((List.range k).filter G.own).length

/-- What the tables have to satisfy besides `Tables.Valid` (`nc` local cells, `n` owned cells, `ne` edges, `nv` vertices): the arrays have the lengths
of `/repo/src/rdymesh.c`, internal edges have two cells, vertices of edges exist, no two owned cells have the same number. -/
structure GTables.Valid (G : GTables) (nc n ne nv : ℕ) : Prop where
  T : G.T.Valid nc n ne
  two : ∀ ie < G.T.internal.len, G.T.cellIds.val (2 * G.T.internal.val ie + 1) ≠ -1
  edgeOwned : G.T.edgeOwned.len = ne
  vertexIds : G.vertexIds.len = 2 * ne
  vertices : ∀ j < 2 * ne, G.vertexIds.val j < nv
  points : G.points.len = nv
  centroids : G.centroids.len = nc
  inj : ∀ c < nc, ∀ c' < nc, G.T.owned.val c = true → G.T.owned.val c' = true → G.T.l2o.val c = G.T.l2o.val c' → c = c'

/-- the cells and internal edges of the tables, as `Muscl.lean` has them -/
def GTables.ls (G : GTables) : LSMesh :=
  ⟨fun c => (G.centroids.val c).1, fun c => (G.centroids.val c).2, (List.range G.T.internal.len).map fun ie => (G.L ie, G.R ie)⟩

variable {G : GTables} {nc n ne nv : ℕ}

theorem GTables.Valid.L_lt (hG : G.Valid nc n ne nv) {ie : ℕ} (h : ie < G.T.internal.len) : G.L ie < nc :=
  (hG.T.left _ (hG.T.ids ie h)).2

theorem GTables.Valid.R_lt (hG : G.Valid nc n ne nv) {ie : ℕ} (h : ie < G.T.internal.len) : G.R ie < nc :=
  ((hG.T.right _ (hG.T.ids ie h)).resolve_left (hG.two ie h)).2

theorem cellsOfEdge_some (hG : G.Valid nc n ne nv) {ie : ℕ} (h : ie < G.T.internal.len) :
    cellsOfEdge G.T ie = some (G.L ie, G.R ie) := by
  have hid := hG.T.ids ie h
  unfold cellsOfEdge
  rw [Arr.get_some h]
  show (G.T.cellIds.get (2 * G.T.internal.val ie)).bind _ = _
  rw [Arr.get_some (by rw [hG.T.cellIds]; omega)]
  show (G.T.cellIds.get (2 * G.T.internal.val ie + 1)).bind _ = _
  rw [Arr.get_some (by rw [hG.T.cellIds]; omega)]
  show (asIndex (G.T.cellIds.val (2 * G.T.internal.val ie))).bind _ = _
  rw [asIndex_some (hG.T.left _ hid).1]
  show (asIndex (G.T.cellIds.val (2 * G.T.internal.val ie + 1))).map _ = _
  rw [asIndex_some ((hG.T.right _ hid).resolve_left (hG.two ie h)).1]
  rfl

theorem GTables.pos_succ (G : GTables) (k : ℕ) : G.pos (k + 1) = G.pos k + if G.own k = true then 1 else 0 := by
  unfold GTables.pos
  rw [List.range_succ, List.filter_append, List.length_append]
  congr 1
  by_cases h : G.own k = true
  · rw [if_pos h, List.filter_cons_of_pos h]; rfl
  · rw [if_neg h, List.filter_cons_of_neg h]; rfl

theorem GTables.pos_own (G : GTables) {k : ℕ} (h : G.own k = true) : G.pos (k + 1) = G.pos k + 1 := by
  rw [G.pos_succ, if_pos h]

theorem GTables.pos_not_own (G : GTables) {k : ℕ} (h : ¬ G.own k = true) : G.pos (k + 1) = G.pos k := by
  rw [G.pos_succ, if_neg h]; rfl

theorem GTables.pos_mono (G : GTables) {j k : ℕ} (h : j ≤ k) : G.pos j ≤ G.pos k := by
  induction k with
  | zero => rw [Nat.le_zero.mp h]
  | succ k ih =>
    by_cases hk : j = k + 1
    · rw [hk]
    · have := ih (by omega)
      rw [G.pos_succ]; omega

theorem GTables.pos_lt (G : GTables) {j k : ℕ} (h : j < k) (ho : G.own j = true) : G.pos j < G.pos k := by
  have := G.pos_mono (j := j + 1) (k := k) h
  rw [G.pos_own ho] at this
  omega

/-! ### Coefficients -/

theorem lsWeights_some (hG : G.Valid nc n ne nv) {ie : ℕ} (h : ie < G.T.internal.len) :
    lsWeights G (G.L ie, G.R ie) =
      some (lsDx G.ls (G.L ie, G.R ie), lsDy G.ls (G.L ie, G.R ie), lsW G.ls (G.L ie, G.R ie)) := by
  unfold lsWeights
  rw [Arr.get_some (by rw [hG.centroids]; exact hG.R_lt h)]
  show (G.centroids.get (G.L ie)).map _ = _
  rw [Arr.get_some (by rw [hG.centroids]; exact hG.L_lt h)]
  rfl

theorem addMatrix_spec (w : ℝ × ℝ × ℝ) {c : ℕ} {M : Arr ℝ} (hc : c < nc) (hM : M.len = nc * 3) :
    ∃ M', addMatrix w c M = some M' ∧ M'.len = M.len ∧ ∀ d,
      M'.val (d * 3 + 0) = RDy.bump (fun d => M.val (d * 3 + 0)) c (w.2.2 * w.1 * w.1) d ∧
      M'.val (d * 3 + 1) = RDy.bump (fun d => M.val (d * 3 + 1)) c (w.2.2 * w.1 * w.2.1) d ∧
      M'.val (d * 3 + 2) = RDy.bump (fun d => M.val (d * 3 + 2)) c (w.2.2 * w.2.1 * w.2.1) d := by
  unfold addMatrix
  rw [bump_some _ (by omega)]
  show ∃ M', Option.bind (Arr.bump ⟨M.len, _⟩ _ _) _ = some M' ∧ _
  rw [bump_mk _ (by omega)]
  show ∃ M', Arr.bump ⟨M.len, _⟩ _ _ = some M' ∧ _
  rw [bump_mk _ (by omega)]
  refine ⟨_, rfl, rfl, fun d => ⟨?_, ?_, ?_⟩⟩
  · show RDy.bump (RDy.bump (RDy.bump M.val _ _) _ _) _ _ (d * 3 + 0) = _
    rw [bump_flat_ne (s := 3) (by omega) (by omega) (by omega), bump_flat_ne (s := 3) (by omega) (by omega) (by omega)]
    exact bump_flat_pt (s := 3) (by omega) rfl
  · show RDy.bump (RDy.bump (RDy.bump M.val _ _) _ _) _ _ (d * 3 + 1) = _
    rw [bump_flat_ne (s := 3) (by omega) (by omega) (by omega)]
    refine bump_flat_pt (s := 3) (by omega) ?_
    rw [bump_flat_ne (s := 3) (by omega) (by omega) (by omega)]
  · show RDy.bump (RDy.bump (RDy.bump M.val _ _) _ _) _ _ (d * 3 + 2) = _
    refine bump_flat_pt (s := 3) (by omega) ?_
    rw [bump_flat_ne (s := 3) (by omega) (by omega) (by omega), bump_flat_ne (s := 3) (by omega) (by omega) (by omega)]

/-- the first `k` edges added to one entry of all cells -/
def accumulated (G : GTables) (v : ℕ × ℕ → ℝ) (k : ℕ) : ℕ → ℝ :=
  ((List.range k).map fun ie => (G.L ie, G.R ie)).foldl (fun a e => RDy.bump (RDy.bump a e.1 (v e)) e.2 (v e)) fun _ => 0

theorem accumulated_succ (G : GTables) (v : ℕ × ℕ → ℝ) (k : ℕ) : accumulated G v (k + 1) =
    RDy.bump (RDy.bump (accumulated G v k) (G.L k) (v (G.L k, G.R k))) (G.R k) (v (G.L k, G.R k)) := by
  unfold accumulated
  rw [List.range_succ, List.map_append, List.foldl_append]
  rfl

theorem bump_congr {f f' : ℕ → ℝ} {c0 c : ℕ} {v : ℝ} (h : f c = f' c) : RDy.bump f c0 v c = RDy.bump f' c0 v c := by
  unfold RDy.bump; rw [h]

theorem matrices_spec (hG : G.Valid nc n ne nv) :
    ∃ M, loopM (lsMatrixStep G) G.T.internal.len (Arr.calloc (nc * 3) 0) = some M ∧ M.len = nc * 3 ∧ ∀ c,
      M.val (c * 3 + 0) = lsM00 G.ls c ∧ M.val (c * 3 + 1) = lsM01 G.ls c ∧ M.val (c * 3 + 2) = lsM11 G.ls c := by
  have h := loopM_inv (step := lsMatrixStep G) (n := G.T.internal.len) (s := Arr.calloc (nc * 3) 0)
    (fun k M => M.len = nc * 3 ∧ ∀ c,
      M.val (c * 3 + 0) = accumulated G (fun e => lsW G.ls e * lsDx G.ls e * lsDx G.ls e) k c ∧
      M.val (c * 3 + 1) = accumulated G (fun e => lsW G.ls e * lsDx G.ls e * lsDy G.ls e) k c ∧
      M.val (c * 3 + 2) = accumulated G (fun e => lsW G.ls e * lsDy G.ls e * lsDy G.ls e) k c)
    ⟨rfl, fun c => ⟨rfl, rfl, rfl⟩⟩ (by
      rintro k hk M ⟨hl, hv⟩
      unfold lsMatrixStep
      rw [cellsOfEdge_some hG hk]
      show ∃ s', (lsWeights G (G.L k, G.R k)).bind _ = some s' ∧ _
      rw [lsWeights_some hG hk]
      obtain ⟨M1, a1, a2, a3⟩ := addMatrix_spec (lsDx G.ls (G.L k, G.R k), lsDy G.ls (G.L k, G.R k), lsW G.ls (G.L k, G.R k))
        (hG.L_lt hk) hl
      obtain ⟨M2, b1, b2, b3⟩ := addMatrix_spec (lsDx G.ls (G.L k, G.R k), lsDy G.ls (G.L k, G.R k), lsW G.ls (G.L k, G.R k))
        (hG.R_lt hk) (a2.trans hl)
      refine ⟨M2, ?_, (b2.trans a2).trans hl, fun c => ⟨?_, ?_, ?_⟩⟩
      · show (addMatrix _ (G.L k) M).bind _ = _
        rw [a1]; exact b1
      · rw [(b3 c).1, accumulated_succ]
        refine bump_congr ((a3 c).1.trans (bump_congr (hv c).1))
      · rw [(b3 c).2.1, accumulated_succ]
        refine bump_congr ((a3 c).2.1.trans (bump_congr (hv c).2.1))
      · rw [(b3 c).2.2, accumulated_succ]
        refine bump_congr ((a3 c).2.2.trans (bump_congr (hv c).2.2)))
  exact h

/-- entry `k` of the inverse matrix of a cell -/
noncomputable def invEntry (m : LSMesh) (c k : ℕ) : ℝ :=
  if k = 0 then (lsInv m c).1 else if k = 1 then (lsInv m c).2.1 else if k = 2 then (lsInv m c).2.1 else (lsInv m c).2.2

theorem inverses_spec (m : LSMesh) {M : Arr ℝ} (hl : M.len = nc * 3) (hM : ∀ c,
      M.val (c * 3 + 0) = lsM00 m c ∧ M.val (c * 3 + 1) = lsM01 m c ∧ M.val (c * 3 + 2) = lsM11 m c) :
    ∃ inv, loopM (inverseStep M) nc (Arr.calloc (nc * 4) 0) = some inv ∧ inv.len = nc * 4 ∧ ∀ c < nc, ∀ k < 4,
      inv.val (c * 4 + k) = invEntry m c k := by
  refine loopM_inv (step := inverseStep M) (n := nc) (s := Arr.calloc (nc * 4) 0)
    (fun j inv => inv.len = nc * 4 ∧ ∀ c < j, ∀ k < 4, inv.val (c * 4 + k) = invEntry m c k)
    ⟨rfl, by intro c hc; omega⟩ ?_
  rintro j hj inv ⟨hil, hiv⟩
  unfold inverseStep
  rw [Arr.get_some (by omega)]
  show ∃ s', (M.get (j * 3 + 1)).bind _ = some s' ∧ _
  rw [Arr.get_some (by omega)]
  show ∃ s', (M.get (j * 3 + 2)).bind _ = some s' ∧ _
  rw [Arr.get_some (by omega), (hM j).1, (hM j).2.1, (hM j).2.2]
  show ∃ s', (if |lsM00 m j * lsM11 m j - lsM01 m j * lsM01 m j| < 1e-15 then _ else _) = some s' ∧ _
  have key : ∀ (v : ℕ → ℝ), (∀ k < 4, v k = invEntry m j k) → ∃ s', putFour inv j v = some s' ∧ s'.len = nc * 4 ∧
      ∀ c < j + 1, ∀ k < 4, s'.val (c * 4 + k) = invEntry m c k := by
    intro v hv
    obtain ⟨s', e1, e2, e3⟩ := rrow_put (nd := 4) v (f := inv) (e := j) (n := nc) hj hil
    refine ⟨s', e1, e2.trans hil, fun c hc k hk => ?_⟩
    rw [e3 c k hk]
    by_cases h : c = j
    · subst h; rw [if_pos rfl, hv k hk]
    · rw [if_neg h, hiv c (by omega) k hk]
  by_cases hd : |lsM00 m j * lsM11 m j - lsM01 m j * lsM01 m j| < 1e-15
  · rw [if_pos hd]
    refine key _ fun k hk => ?_
    unfold invEntry lsInv lsDet
    rw [if_pos hd]
    simp
  · rw [if_neg hd]
    refine key _ fun k hk => ?_
    unfold invEntry lsInv lsDet
    rw [if_neg hd]

theorem lsProduct_some {inv : Arr ℝ} {m : LSMesh} (hl : inv.len = nc * 4)
    (hi : ∀ c < nc, ∀ k < 4, inv.val (c * 4 + k) = invEntry m c k) (e : ℕ × ℕ) {c : ℕ} (hc : c < nc) :
    lsProduct inv (lsDx m e, lsDy m e, lsW m e) c 0 1 = some (lsCoeff m e c).1 ∧
    lsProduct inv (lsDx m e, lsDy m e, lsW m e) c 2 3 = some (lsCoeff m e c).2 := by
  unfold lsProduct
  constructor
  · rw [Arr.get_some (by omega), hi c hc 0 (by omega)]
    show (inv.get (c * 4 + 1)).map _ = _
    rw [Arr.get_some (by omega), hi c hc 1 (by omega)]
    rfl
  · rw [Arr.get_some (by omega), hi c hc 2 (by omega)]
    show (inv.get (c * 4 + 3)).map _ = _
    rw [Arr.get_some (by omega), hi c hc 3 (by omega)]
    rfl

/-- coefficient `k` of internal edge `ie` -/
noncomputable def coeffEntry (G : GTables) (ie k : ℕ) : ℝ :=
  if k = 0 then (lsCoeff G.ls (G.L ie, G.R ie) (G.L ie)).1 else if k = 1 then (lsCoeff G.ls (G.L ie, G.R ie) (G.L ie)).2
  else if k = 2 then (lsCoeff G.ls (G.L ie, G.R ie) (G.R ie)).1 else (lsCoeff G.ls (G.L ie, G.R ie) (G.R ie)).2

theorem coeffsB_spec (hG : G.Valid nc n ne nv) {co : Arr ℝ} (hc : co.len = G.T.internal.len * 4) :
    ∃ co', coeffsB G nc co = some co' ∧ co'.len = co.len ∧ ∀ ie < G.T.internal.len, ∀ k < 4,
      co'.val (ie * 4 + k) = coeffEntry G ie k := by
  obtain ⟨M, a1, a2, a3⟩ := matrices_spec hG
  obtain ⟨inv, b1, b2, b3⟩ := inverses_spec G.ls a2 a3
  unfold coeffsB
  rw [a1]
  show ∃ co', (loopM (inverseStep M) nc _).bind _ = some co' ∧ _
  rw [b1]
  show ∃ co', loopM (coeffStep G inv) G.T.internal.len co = some co' ∧ _
  refine loopM_inv (step := coeffStep G inv) (n := G.T.internal.len) (s := co)
    (fun j s => s.len = co.len ∧ ∀ ie < j, ∀ k < 4, s.val (ie * 4 + k) = coeffEntry G ie k)
    ⟨rfl, by intro c hc; omega⟩ ?_
  rintro j hj s ⟨hsl, hsv⟩
  unfold coeffStep
  rw [cellsOfEdge_some hG hj]
  show ∃ s', (lsWeights G (G.L j, G.R j)).bind _ = some s' ∧ _
  rw [lsWeights_some hG hj]
  obtain ⟨p0, p1⟩ := lsProduct_some b2 b3 (G.L j, G.R j) (hG.L_lt hj)
  obtain ⟨p2, p3⟩ := lsProduct_some b2 b3 (G.L j, G.R j) (hG.R_lt hj)
  show ∃ s', (lsProduct inv _ (G.L j) 0 1).bind _ = some s' ∧ _
  rw [p0]
  show ∃ s', (lsProduct inv _ (G.L j) 2 3).bind _ = some s' ∧ _
  rw [p1]
  show ∃ s', (lsProduct inv _ (G.R j) 0 1).bind _ = some s' ∧ _
  rw [p2]
  show ∃ s', (lsProduct inv _ (G.R j) 2 3).bind _ = some s' ∧ _
  rw [p3]
  show ∃ s', putFour s j (coeffEntry G j) = some s' ∧ _
  obtain ⟨s', e1, e2, e3⟩ := rrow_put (nd := 4) (coeffEntry G j) (f := s) (e := j) (n := G.T.internal.len) hj (hsl.trans hc)
  refine ⟨s', e1, e2.trans hsl, fun ie hie k hk => ?_⟩
  rw [e3 ie k hk]
  by_cases h : ie = j
  · subst h; rw [if_pos rfl]
  · rw [if_neg h, hsv ie (by omega) k hk]

/-! ### Gradients -/

/-- component `k` of the state of a cell -/
def compAt (u : Arr ℝ) (k c : ℕ) : ℝ := u.val (3 * c + k)

theorem jumpB_some {u : Arr ℝ} (hu : u.len = 3 * nc) {c : ℕ × ℕ} (h1 : c.1 < nc) (h2 : c.2 < nc) {k : ℕ} (hk : k < 3) :
    jumpB u c k = some (compAt u k c.2 - compAt u k c.1) := by
  unfold jumpB
  rw [Arr.get_some (by omega)]
  show (u.get (c.1 * 3 + k)).map _ = _
  rw [Arr.get_some (by omega), Nat.mul_comm c.1, Nat.mul_comm c.2]
  rfl

/-- the gradient array of component `k` holds these gradients -/
def GradIs (nc : ℕ) (g : Arr ℝ) (X Y : ℕ → ℝ) : Prop :=
  g.len = nc * 2 ∧ ∀ c < nc, g.val (c * 2 + 0) = X c ∧ g.val (c * 2 + 1) = Y c

theorem lsGradX_eq (G : GTables) (q : ℕ → ℝ) : lsGradX G.ls q = (List.range G.T.internal.len).foldl (fun g ie =>
    RDy.bump (RDy.bump g (G.L ie) (coeffEntry G ie 0 * (q (G.R ie) - q (G.L ie)))) (G.R ie)
      (coeffEntry G ie 2 * (q (G.R ie) - q (G.L ie)))) fun _ => 0 := by
  unfold lsGradX
  show List.foldl _ _ (List.map _ _) = _
  rw [List.foldl_map]
  rfl

theorem lsGradY_eq (G : GTables) (q : ℕ → ℝ) : lsGradY G.ls q = (List.range G.T.internal.len).foldl (fun g ie =>
    RDy.bump (RDy.bump g (G.L ie) (coeffEntry G ie 1 * (q (G.R ie) - q (G.L ie)))) (G.R ie)
      (coeffEntry G ie 3 * (q (G.R ie) - q (G.L ie)))) fun _ => 0 := by
  unfold lsGradY
  show List.foldl _ _ (List.map _ _) = _
  rw [List.foldl_map]
  rfl

theorem gradientB_spec (hG : G.Valid nc n ne nv) {co u g : Arr ℝ} (hc : co.len = G.T.internal.len * 4)
    (hco : ∀ ie < G.T.internal.len, ∀ k < 4, co.val (ie * 4 + k) = coeffEntry G ie k) (hu : u.len = 3 * nc)
    (hg : g.len = nc * 2) {k : ℕ} (hk : k < 3) :
    ∃ g', gradientB G.T nc co u k g = some g' ∧ GradIs nc g' (lsGradX G.ls (compAt u k)) (lsGradY G.ls (compAt u k)) := by
  unfold gradientB Arr.zeroFirst
  rw [if_pos (by omega), lsGradX_eq, lsGradY_eq]
  show ∃ g', loopM _ _ _ = some g' ∧ _
  have h := loopM_inv (step := gradStep G.T co u k) (n := G.T.internal.len) (s := ⟨g.len, fun i => if i < nc * 2 then 0 else g.val i⟩)
    (fun j s => GradIs nc s
      ((List.range j).foldl (fun g ie =>
        RDy.bump (RDy.bump g (G.L ie) (coeffEntry G ie 0 * (compAt u k (G.R ie) - compAt u k (G.L ie)))) (G.R ie)
        (coeffEntry G ie 2 * (compAt u k (G.R ie) - compAt u k (G.L ie)))) fun _ => 0)
      ((List.range j).foldl (fun g ie =>
        RDy.bump (RDy.bump g (G.L ie) (coeffEntry G ie 1 * (compAt u k (G.R ie) - compAt u k (G.L ie)))) (G.R ie)
        (coeffEntry G ie 3 * (compAt u k (G.R ie) - compAt u k (G.L ie)))) fun _ => 0))
    ⟨hg, fun c hc => ⟨if_pos (by omega), if_pos (by omega)⟩⟩ (by
      rintro j hj s ⟨hsl, hsv⟩
      unfold gradStep
      rw [cellsOfEdge_some hG hj]
      show ∃ s', (co.get (j * 4 + 0)).bind _ = some s' ∧ _
      rw [Arr.get_some (by omega), hco j hj 0 (by omega)]
      show ∃ s', (co.get (j * 4 + 1)).bind _ = some s' ∧ _
      rw [Arr.get_some (by omega), hco j hj 1 (by omega)]
      show ∃ s', (co.get (j * 4 + 2)).bind _ = some s' ∧ _
      rw [Arr.get_some (by omega), hco j hj 2 (by omega)]
      show ∃ s', (co.get (j * 4 + 3)).bind _ = some s' ∧ _
      rw [Arr.get_some (by omega), hco j hj 3 (by omega)]
      have hL := hG.L_lt hj
      have hR := hG.R_lt hj
      show ∃ s', (jumpB u (G.L j, G.R j) k).bind _ = some s' ∧ _
      rw [jumpB_some hu hL hR hk]
      show ∃ s', (s.bump (G.L j * 2 + 0) _).bind _ = some s' ∧ _
      rw [bump_some _ (by omega)]
      show ∃ s', (Arr.bump ⟨s.len, RDy.bump s.val _ _⟩ (G.L j * 2 + 1) _).bind _ = some s' ∧ _
      rw [bump_mk _ (by omega)]
      show ∃ s', (Arr.bump ⟨s.len, _⟩ (G.R j * 2 + 0) _).bind _ = some s' ∧ _
      rw [bump_mk _ (by omega)]
      show ∃ s', Arr.bump ⟨s.len, _⟩ (G.R j * 2 + 1) _ = some s' ∧ _
      rw [bump_mk _ (by omega)]
      refine ⟨_, rfl, hsl, fun c hc => ⟨?_, ?_⟩⟩
      · rw [List.range_succ, List.foldl_append]
        show RDy.bump (RDy.bump (RDy.bump (RDy.bump s.val _ _) _ _) _ _) _ _ (c * 2 + 0) = RDy.bump (RDy.bump _ _ _) _ _ c
        rw [bump_flat_ne (s := 2) (by omega) (by omega) (by omega)]
        refine bump_flat_pt (s := 2) (by omega) ?_
        rw [bump_flat_ne (s := 2) (by omega) (by omega) (by omega)]
        exact bump_flat_pt (s := 2) (by omega) (hsv c hc).1
      · rw [List.range_succ, List.foldl_append]
        show RDy.bump (RDy.bump (RDy.bump (RDy.bump s.val _ _) _ _) _ _) _ _ (c * 2 + 1) = RDy.bump (RDy.bump _ _ _) _ _ c
        refine bump_flat_pt (s := 2) (by omega) ?_
        rw [bump_flat_ne (s := 2) (by omega) (by omega) (by omega)]
        refine bump_flat_pt (s := 2) (by omega) ?_
        rw [bump_flat_ne (s := 2) (by omega) (by omega) (by omega)]
        exact (hsv c hc).2)
  exact h

theorem gradientsB_spec (hG : G.Valid nc n ne nv) {co u : Arr ℝ} {g : ℕ → Arr ℝ} (hc : co.len = G.T.internal.len * 4)
    (hco : ∀ ie < G.T.internal.len, ∀ k < 4, co.val (ie * 4 + k) = coeffEntry G ie k) (hu : u.len = 3 * nc)
    (hg : ∀ k < 3, (g k).len = nc * 2) :
    ∃ g', gradientsB G.T nc co u g = some g' ∧ ∀ k < 3,
      GradIs nc (g' k) (lsGradX G.ls (compAt u k)) (lsGradY G.ls (compAt u k)) := by
  obtain ⟨g0, a0, b0⟩ := gradientB_spec hG hc hco hu (hg 0 (by omega)) (k := 0) (by omega)
  obtain ⟨g1, a1, b1⟩ := gradientB_spec hG hc hco hu (hg 1 (by omega)) (k := 1) (by omega)
  obtain ⟨g2, a2, b2⟩ := gradientB_spec hG hc hco hu (hg 2 (by omega)) (k := 2) (by omega)
  unfold gradientsB
  rw [a0]
  show ∃ g', (gradientB G.T nc co u 1 (g 1)).bind _ = some g' ∧ _
  rw [a1]
  show ∃ g', (gradientB G.T nc co u 2 (g 2)).map _ = some g' ∧ _
  rw [a2]
  refine ⟨_, rfl, fun k hk => ?_⟩
  interval_cases k
  · exact b0
  · exact b1
  · exact b2

end RDy
