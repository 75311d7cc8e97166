import Verif.Lemmas.Packed

/-! Lemmas about the second-order interior operator with packed arrays: exchange, reconstruction, fluxes. -/

namespace RDy

variable {G : GTables} {nc n ne nv : ℕ}

/-! ### Exchange -/

theorem allProcs_spec {n : ℕ} {α : Type} {f : Fin n → Option α} {Q : Fin n → α → Prop} (h : ∀ p, ∃ a, f p = some a ∧ Q p a) :
    ∃ g, allProcs f = some g ∧ ∀ p, f p = some (g p) ∧ Q p (g p) := by
  have h0 : ∀ p, (f p).isSome = true := fun p => by obtain ⟨a, e, _⟩ := h p; rw [e]; rfl
  unfold allProcs
  rw [dif_pos h0]
  refine ⟨_, rfl, fun p => ?_⟩
  obtain ⟨a, e, q⟩ := h p
  have : (f p).get (h0 p) = a := by simp [e]
  rw [this]
  exact ⟨e, q⟩

theorem packB_spec (hG : G.Valid nc n ne nv) {g : ℕ → Arr ℝ} (hg : ∀ i < 3, (g i).len = nc * 2) {k : ℕ} (hk : k < 2) :
    ∃ v, packB G.T nc n g k = some v ∧ v.len = 3 * n ∧ ∀ c < nc, G.T.owned.val c = true → ∀ i < 3,
      v.val (3 * G.T.l2o.val c + i) = (g i).val (c * 2 + k) := by
  unfold packB
  refine loopM_inv (step := packStep G.T g k) (n := nc) (s := Arr.calloc (3 * n) 0)
    (fun j v => v.len = 3 * n ∧ ∀ c < j, G.T.owned.val c = true → ∀ i < 3,
      v.val (3 * G.T.l2o.val c + i) = (g i).val (c * 2 + k)) ⟨rfl, by intro c hc; omega⟩ ?_
  rintro j hj v ⟨hl, hv⟩
  unfold packStep
  rw [Arr.get_some (by rw [hG.T.owned]; exact hj)]
  show ∃ s', (if G.T.owned.val j = true then _ else _) = some s' ∧ _
  by_cases hw : G.T.owned.val j = true
  · rw [if_pos hw, Arr.get_some (by rw [hG.T.l2o]; exact hj)]
    have ho := hG.T.range j hj hw
    obtain ⟨v', e1, e2, e3⟩ := loopM_inv
      (step := fun (v : Arr ℝ) (i : ℕ) => ((g i).get (j * 2 + k)).bind fun x => v.put (3 * G.T.l2o.val j + i) x) (n := 3) (s := v)
      (fun m s => s.len = 3 * n ∧ ∀ o, ∀ i < 3, s.val (3 * o + i) =
        if o = G.T.l2o.val j ∧ i < m then (g i).val (j * 2 + k) else v.val (3 * o + i))
      ⟨hl, by intro o i hi; rw [if_neg (by omega)]⟩ (by
        rintro m hm s ⟨hsl, hsv⟩
        have := hg m hm
        rw [Arr.get_some (by omega)]
        refine ⟨_, Arr.put_some _ (by omega), hsl, ?_⟩
        intro o i hi
        show Function.update s.val _ _ _ = _
        by_cases h : o = G.T.l2o.val j ∧ i = m
        · obtain ⟨rfl, rfl⟩ := h
          rw [Function.update_self, if_pos ⟨rfl, by omega⟩]
        · rw [Function.update_of_ne (by rw [Ne, flat_inj hi hm]; exact h), hsv o i hi]
          by_cases h2 : o = G.T.l2o.val j ∧ i < m
          · rw [if_pos h2, if_pos ⟨h2.1, by omega⟩]
          · rw [if_neg h2, if_neg]
            rintro ⟨h3, h4⟩
            have : i ≠ m := fun q => h ⟨h3, q⟩
            exact h2 ⟨h3, by omega⟩)
    refine ⟨v', e1, e2, fun c hc hwc i hi => ?_⟩
    rw [e3 _ i hi]
    by_cases h : c = j
    · subst h; rw [if_pos ⟨rfl, hi⟩]
    · rw [if_neg, hv c (by omega) hwc i hi]
      rintro ⟨h1, -⟩
      exact h (hG.inj c (by omega) j hj hwc hw h1)
  · rw [if_neg hw]
    refine ⟨v, rfl, hl, fun c hc hwc i hi => ?_⟩
    have : c ≠ j := fun h => hw (h ▸ hwc)
    exact hv c (by omega) hwc i hi

theorem unpackOne_spec {v g : Arr ℝ} {nc k i : ℕ} (hv : v.len = 3 * nc) (hg : g.len = nc * 2) (hk : k < 2) (hi : i < 3) :
    ∃ g', loopM (unpackStep v k i) nc g = some g' ∧ g'.len = nc * 2 ∧ ∀ c < nc, ∀ k' < 2,
      g'.val (c * 2 + k') = if k' = k then v.val (3 * c + i) else g.val (c * 2 + k') := by
  obtain ⟨g', e1, e2, e3⟩ := loopM_inv (step := unpackStep v k i) (n := nc) (s := g)
    (fun j s => s.len = nc * 2 ∧ ∀ c, ∀ k' < 2, s.val (c * 2 + k') =
      if k' = k ∧ c < j then v.val (3 * c + i) else g.val (c * 2 + k'))
    ⟨hg, by intro c k' _; rw [if_neg (by omega)]⟩ (by
      rintro j hj s ⟨hsl, hsv⟩
      unfold unpackStep
      rw [Arr.get_some (by omega)]
      refine ⟨_, Arr.put_some _ (by omega), hsl, ?_⟩
      intro c k' hk'
      show Function.update s.val _ _ _ = _
      by_cases h : c = j ∧ k' = k
      · obtain ⟨rfl, rfl⟩ := h
        rw [Function.update_self, if_pos ⟨rfl, by omega⟩]
      · rw [Function.update_of_ne (by rw [Ne, rflat_inj hk' hk]; exact h), hsv c k' hk']
        by_cases h2 : k' = k ∧ c < j
        · rw [if_pos h2, if_pos ⟨h2.1, by omega⟩]
        · rw [if_neg h2, if_neg]
          rintro ⟨h3, h4⟩
          have : c ≠ j := fun q => h ⟨q, h3⟩
          exact h2 ⟨h3, by omega⟩)
  refine ⟨g', e1, e2, fun c hc k' hk' => ?_⟩
  rw [e3 c k' hk']
  by_cases h : k' = k
  · rw [if_pos ⟨h, hc⟩, if_pos h]
  · rw [if_neg (fun q => h q.1), if_neg h]

theorem unpackB_spec {v : Arr ℝ} {g : ℕ → Arr ℝ} {nc k : ℕ} (hv : v.len = 3 * nc) (hg : ∀ i < 3, (g i).len = nc * 2) (hk : k < 2) :
    ∃ g', unpackB v nc k g = some g' ∧ ∀ i < 3, (g' i).len = nc * 2 ∧ ∀ c < nc, ∀ k' < 2,
      (g' i).val (c * 2 + k') = if k' = k then v.val (3 * c + i) else (g i).val (c * 2 + k') := by
  obtain ⟨g0, a0, b0⟩ := unpackOne_spec hv (hg 0 (by omega)) hk (i := 0) (by omega)
  obtain ⟨g1, a1, b1⟩ := unpackOne_spec hv (hg 1 (by omega)) hk (i := 1) (by omega)
  obtain ⟨g2, a2, b2⟩ := unpackOne_spec hv (hg 2 (by omega)) hk (i := 2) (by omega)
  unfold unpackB
  rw [a0]
  show ∃ g', (loopM (unpackStep v k 1) nc (g 1)).bind _ = some g' ∧ _
  rw [a1]
  show ∃ g', (loopM (unpackStep v k 2) nc (g 2)).map _ = some g' ∧ _
  rw [a2]
  refine ⟨_, rfl, fun i hi => ?_⟩
  interval_cases i
  · exact b0
  · exact b1
  · exact b2

/-- What `root` and the processes have to satisfy: the tables of all processes are valid, and the place from which a local cell receives belongs
to an owned cell with the same global number; owned cells of all processes have different global numbers. -/
structure Procs.Valid {N : ℕ} (pr : Fin N → PProc) (root : Fin N → ℕ → Fin N × ℕ) (gid : Fin N → ℕ → ℕ) (ne nv : Fin N → ℕ) : Prop where
  tables : ∀ p, (pr p).G.Valid (pr p).nc (pr p).n (ne p) (nv p)
  count : ∀ p, (pr p).no = (pr p).G.pos (pr p).G.T.internal.len
  root : ∀ p, ∀ c < (pr p).nc, ∃ c' < (pr (root p c).1).nc, (pr (root p c).1).G.T.owned.val c' = true ∧
    (pr (root p c).1).G.T.l2o.val c' = (root p c).2 ∧ gid (root p c).1 c' = gid p c
  unique : ∀ p q, ∀ c < (pr p).nc, ∀ c' < (pr q).nc, (pr p).G.T.owned.val c = true → (pr q).G.T.owned.val c' = true →
    gid p c = gid q c' → (⟨p, c⟩ : Fin N × ℕ) = ⟨q, c'⟩

variable {N : ℕ} {pr : Fin N → PProc} {root : Fin N → ℕ → Fin N × ℕ} {gid : Fin N → ℕ → ℕ} {nes nvs : Fin N → ℕ}

theorem exchangePass_spec (h : Procs.Valid pr root gid nes nvs) {g : Fin N → ℕ → Arr ℝ} (hg : ∀ p, ∀ i < 3, (g p i).len = (pr p).nc * 2)
    {k : ℕ} (hk : k < 2) (V : ℕ → ℕ → ℝ)
    (hV : ∀ p, ∀ c < (pr p).nc, (pr p).G.T.owned.val c = true → ∀ i < 3, (g p i).val (c * 2 + k) = V i (gid p c)) :
    ∃ g', exchangePass pr root k g = some g' ∧ ∀ p, ∀ i < 3, (g' p i).len = (pr p).nc * 2 ∧ ∀ c < (pr p).nc, ∀ k' < 2,
      (g' p i).val (c * 2 + k') = if k' = k then V i (gid p c) else (g p i).val (c * 2 + k') := by
  obtain ⟨v, a1, a2⟩ := allProcs_spec (f := fun p => packB (pr p).G.T (pr p).nc (pr p).n (g p) k)
    fun p => packB_spec (h.tables p) (hg p) hk
  have hr : ∀ p, ∀ c < (pr p).nc, ∀ i < 3, (toLocal root v p (pr p).nc).val (3 * c + i) = V i (gid p c) := by
    intro p c hc i hi
    obtain ⟨c', h1, h2, h3, h4⟩ := h.root p c hc
    show (v (root p ((3 * c + i) / 3)).1).val (3 * (root p ((3 * c + i) / 3)).2 + (3 * c + i) % 3) = _
    have e1 : (3 * c + i) / 3 = c := by omega
    have e2 : (3 * c + i) % 3 = i := by omega
    rw [e1, e2, ← h3, (a2 _).2.2 c' h1 h2 i hi, hV _ c' h1 h2 i hi, h4]
  obtain ⟨g', b1, b2⟩ := allProcs_spec (f := fun p => unpackB (toLocal root v p (pr p).nc) (pr p).nc k (g p))
    fun p => unpackB_spec (v := toLocal root v p (pr p).nc) rfl (hg p) hk
  refine ⟨g', ?_, fun p i hi => ⟨((b2 p).2 i hi).1, fun c hc k' hk' => ?_⟩⟩
  · unfold exchangePass
    rw [a1]; exact b1
  · rw [((b2 p).2 i hi).2 c hc k' hk']
    by_cases hkk : k' = k
    · rw [if_pos hkk, if_pos hkk, hr p c hc i hi]
    · rw [if_neg hkk, if_neg hkk]

theorem exchangeB_spec (h : Procs.Valid pr root gid nes nvs) {g : Fin N → ℕ → Arr ℝ} {X Y : ℕ → ℕ → ℝ} {x y : Fin N → ℕ → ℕ → ℝ}
    (hg : ∀ p, ∀ i < 3, GradIs (pr p).nc (g p i) (x p i) (y p i))
    (hX : ∀ p, ∀ c < (pr p).nc, (pr p).G.T.owned.val c = true → ∀ i < 3, x p i c = X i (gid p c) ∧ y p i c = Y i (gid p c)) :
    ∃ g', exchangeB pr root g = some g' ∧ ∀ p, ∀ i < 3, GradIs (pr p).nc (g' p i) (fun c => X i (gid p c)) (fun c => Y i (gid p c)) := by
  obtain ⟨g1, a1, a2⟩ := exchangePass_spec h (g := g) (fun p i hi => (hg p i hi).1) (k := 0) (by omega) X
    (fun p c hc hw i hi => by rw [((hg p i hi).2 c hc).1, (hX p c hc hw i hi).1])
  obtain ⟨g2, b1, b2⟩ := exchangePass_spec h (g := g1) (fun p i hi => (a2 p i hi).1) (k := 1) (by omega) Y
    (fun p c hc hw i hi => by
      rw [(a2 p i hi).2 c hc 1 (by omega), if_neg (by omega), ((hg p i hi).2 c hc).2, (hX p c hc hw i hi).2])
  refine ⟨g2, ?_, fun p i hi => ⟨(b2 p i hi).1, fun c hc => ⟨?_, ?_⟩⟩⟩
  · unfold exchangeB
    rw [a1]; exact b1
  · rw [(b2 p i hi).2 c hc 0 (by omega), if_neg (by omega), (a2 p i hi).2 c hc 0 (by omega), if_pos rfl]
  · rw [(b2 p i hi).2 c hc 1 (by omega), if_pos rfl]

/-! ### Reconstruction -/

/-- internal edge `ie` as `Muscl.lean` has it -/
def GTables.medge (G : GTables) (ie : ℕ) : MEdge where
  left := G.L ie
  right := G.R ie
  x0 := (G.points.val (G.vertexIds.val (2 * G.T.internal.val ie))).1
  y0 := (G.points.val (G.vertexIds.val (2 * G.T.internal.val ie))).2
  x1 := (G.points.val (G.vertexIds.val (2 * G.T.internal.val ie + 1))).1
  y1 := (G.points.val (G.vertexIds.val (2 * G.T.internal.val ie + 1))).2
  owned := G.own ie
  len := G.T.elen.val (G.T.internal.val ie)
  sn := G.T.sn.val (G.T.internal.val ie)
  cn := G.T.cn.val (G.T.internal.val ie)

theorem midpointB_some (hG : G.Valid nc n ne nv) {ie : ℕ} (h : ie < G.T.internal.len) :
    midpointB G (G.T.internal.val ie) =
      some (0.5 * ((G.medge ie).x0 + (G.medge ie).x1), 0.5 * ((G.medge ie).y0 + (G.medge ie).y1)) := by
  have hid := hG.T.ids ie h
  unfold midpointB
  rw [Arr.get_some (by rw [hG.vertexIds]; omega)]
  show (G.vertexIds.get (2 * G.T.internal.val ie + 1)).bind _ = _
  rw [Arr.get_some (by rw [hG.vertexIds]; omega)]
  show (G.points.get (G.vertexIds.val (2 * G.T.internal.val ie))).bind _ = _
  rw [Arr.get_some (by rw [hG.points]; exact hG.vertices _ (by omega))]
  show (G.points.get (G.vertexIds.val (2 * G.T.internal.val ie + 1))).map _ = _
  rw [Arr.get_some (by rw [hG.points]; exact hG.vertices _ (by omega))]
  rfl

theorem extrapB_some (hG : G.Valid nc n ne nv) {g : Arr ℝ} {X Y : ℕ → ℝ} (hg : GradIs nc g X Y) {c : ℕ} (hc : c < nc) (m : ℝ × ℝ) :
    extrapB G g c m = some (extrapolation G.ls c (X c) (Y c) m.1 m.2) := by
  have := hg.1
  unfold extrapB
  rw [Arr.get_some (by rw [hG.centroids]; exact hc)]
  show (g.get (c * 2 + 0)).bind _ = _
  rw [Arr.get_some (by omega), (hg.2 c hc).1]
  show (g.get (c * 2 + 1)).map _ = _
  rw [Arr.get_some (by omega), (hg.2 c hc).2]
  rfl

/-- component `k` on both sides of internal edge `ie` -/
noncomputable def facePairB (l : Limiter) (G : GTables) (u : Arr ℝ) (X Y : ℕ → ℕ → ℝ) (ie k : ℕ) : ℝ × ℝ :=
  faceOf l G.ls (compAt u k) (X k) (Y k) (G.medge ie)

theorem faces_spec (hG : G.Valid nc n ne nv) (l : Limiter) {u : Arr ℝ} (hu : u.len = 3 * nc) {g : ℕ → Arr ℝ} {X Y : ℕ → ℕ → ℝ}
    (hg : ∀ k < 3, GradIs nc (g k) (X k) (Y k)) {ie : ℕ} (hie : ie < G.T.internal.len) {oe no : ℕ} (ho : oe < no) {f : Arr ℝ}
    (hf : f.len = no * 6) :
    ∃ f', loopM (faceStep l G u g (G.L ie, G.R ie)
        (0.5 * ((G.medge ie).x0 + (G.medge ie).x1), 0.5 * ((G.medge ie).y0 + (G.medge ie).y1)) oe) 3 f = some f' ∧
      (f'.len = no * 6 ∧ ∀ j < oe * 6, f'.val j = f.val j) ∧
      ∀ k < 3, f'.val (oe * 6 + k) = (facePairB l G u X Y ie k).1 ∧ f'.val (oe * 6 + 3 + k) = (facePairB l G u X Y ie k).2 := by
  refine loopM_inv (step := faceStep l G u g (G.L ie, G.R ie)
        (0.5 * ((G.medge ie).x0 + (G.medge ie).x1), 0.5 * ((G.medge ie).y0 + (G.medge ie).y1)) oe) (n := 3) (s := f)
    (fun K s => (s.len = no * 6 ∧ ∀ j < oe * 6, s.val j = f.val j) ∧
      ∀ k < K, s.val (oe * 6 + k) = (facePairB l G u X Y ie k).1 ∧ s.val (oe * 6 + 3 + k) = (facePairB l G u X Y ie k).2)
    ⟨⟨hf, fun _ _ => rfl⟩, by intro k hk; omega⟩ ?_
  rintro K hK s ⟨⟨hsl, hs0⟩, hsv⟩
  have hL := hG.L_lt hie
  have hR := hG.R_lt hie
  unfold faceStep
  rw [extrapB_some hG (hg K hK) hL]
  show ∃ s', (extrapB G (g K) (G.R ie) _).bind _ = some s' ∧ _
  rw [extrapB_some hG (hg K hK) hR]
  show ∃ s', (jumpB u (G.L ie, G.R ie) K).bind _ = some s' ∧ _
  rw [jumpB_some hu hL hR hK]
  show ∃ s', (u.get (G.L ie * 3 + K)).bind _ = some s' ∧ _
  rw [Arr.get_some (by omega)]
  show ∃ s', (u.get (G.R ie * 3 + K)).bind _ = some s' ∧ _
  rw [Arr.get_some (by omega)]
  show ∃ s', (s.put (oe * 6 + K) _).bind _ = some s' ∧ _
  rw [Arr.put_some _ (by omega)]
  show ∃ s', Arr.put ⟨s.len, _⟩ (oe * 6 + 3 + K) _ = some s' ∧ _
  refine ⟨_, Arr.put_some _ (show oe * 6 + 3 + K < s.len by omega), ⟨hsl, fun j hj => ?_⟩, fun k hk => ?_⟩
  · show Function.update (Function.update s.val _ _) _ _ j = _
    rw [Function.update_of_ne (by omega), Function.update_of_ne (by omega), hs0 j hj]
  · show Function.update (Function.update s.val _ _) _ _ (oe * 6 + k) = _ ∧
      Function.update (Function.update s.val _ _) _ _ (oe * 6 + 3 + k) = _
    by_cases h : k = K
    · subst h
      rw [Function.update_of_ne (by omega), Function.update_self, Function.update_self, Nat.mul_comm (G.L ie), Nat.mul_comm (G.R ie)]
      exact ⟨rfl, rfl⟩
    · rw [Function.update_of_ne (by omega), Function.update_of_ne (by omega), Function.update_of_ne (by omega),
        Function.update_of_ne (by omega)]
      exact hsv k (by omega)

/-- the six values of internal edge `ie` in `q_reconstructed` -/
noncomputable def faceEntry (l : Limiter) (G : GTables) (u : Arr ℝ) (X Y : ℕ → ℕ → ℝ) (ie i : ℕ) : ℝ :=
  if i = 0 then max 0 (facePairB l G u X Y ie 0).1 else if i < 3 then (facePairB l G u X Y ie i).1
  else if i = 3 then max 0 (facePairB l G u X Y ie 0).2 else (facePairB l G u X Y ie (i - 3)).2

theorem clampB_some {f : Arr ℝ} {i : ℕ} (h : i < f.len) : clampB f i = some ⟨f.len, Function.update f.val i (max 0 (f.val i))⟩ := by
  unfold clampB
  rw [Arr.get_some h]
  exact Arr.put_some _ h

theorem reconstructB_spec (hG : G.Valid nc n ne nv) (l : Limiter) {u : Arr ℝ} (hu : u.len = 3 * nc) {g : ℕ → Arr ℝ} {X Y : ℕ → ℕ → ℝ}
    (hg : ∀ k < 3, GradIs nc (g k) (X k) (Y k)) {f : Arr ℝ} (hf : f.len = G.pos G.T.internal.len * 6) :
    ∃ f', reconstructB l G u g f = some f' ∧ f'.len = f.len ∧ ∀ ie < G.T.internal.len, G.own ie = true → ∀ i < 6,
      f'.val (G.pos ie * 6 + i) = faceEntry l G u X Y ie i := by
  obtain ⟨s, a1, a2, a3, a4⟩ := loopM_inv (step := reconStep l G u g) (n := G.T.internal.len) (s := (0, f))
    (fun k s => s.1 = G.pos k ∧ s.2.len = f.len ∧ ∀ ie < k, G.own ie = true → ∀ i < 6,
      s.2.val (G.pos ie * 6 + i) = faceEntry l G u X Y ie i) ⟨rfl, rfl, by intro ie hie; omega⟩ (by
      rintro k hk ⟨oe, s⟩ ⟨h1, h2, h3⟩
      dsimp only at h1 h2 h3
      subst h1
      unfold reconStep
      rw [Arr.get_some hk]
      show ∃ s', (G.T.edgeOwned.get (G.T.internal.val k)).bind _ = some s' ∧ _
      rw [Arr.get_some (by rw [hG.edgeOwned]; exact hG.T.ids k hk)]
      show ∃ s', (if G.own k = true then _ else _) = some s' ∧ _
      by_cases hw : G.own k = true
      · have hlt := G.pos_lt hk hw
        rw [if_pos hw, cellsOfEdge_some hG hk]
        show ∃ s', (midpointB G (G.T.internal.val k)).bind _ = some s' ∧ _
        rw [midpointB_some hG hk]
        obtain ⟨f1, b1, ⟨b2, b3⟩, b4⟩ := faces_spec hG l hu hg hk hlt (h2.trans hf)
        show ∃ s', (loopM (faceStep l G u g (G.L k, G.R k) _ (G.pos k)) 3 s).bind _ = some s' ∧ _
        rw [b1]
        show ∃ s', (clampB f1 (G.pos k * 6 + 0)).bind _ = some s' ∧ _
        rw [clampB_some (by omega)]
        show ∃ s', (clampB ⟨f1.len, _⟩ (G.pos k * 6 + 3)).map _ = some s' ∧ _
        rw [clampB_some (f := ⟨f1.len, Function.update f1.val (G.pos k * 6 + 0) (max 0 (f1.val (G.pos k * 6 + 0)))⟩)
          (show G.pos k * 6 + 3 < f1.len by omega)]
        refine ⟨_, rfl, (G.pos_own hw).symm, by show f1.len = _; omega, fun ie hie ho i hi => ?_⟩
        show Function.update (Function.update f1.val _ _) (G.pos k * 6 + 3)
          (max 0 (Function.update f1.val (G.pos k * 6 + 0) _ (G.pos k * 6 + 3))) (G.pos ie * 6 + i) = _
        by_cases h : ie = k
        · subst h
          have e0 := b4 0 (by omega)
          have e1 := b4 1 (by omega)
          have e2 := b4 2 (by omega)
          rw [Function.update_of_ne (show G.pos ie * 6 + 3 ≠ G.pos ie * 6 + 0 by omega)]
          interval_cases i
          · rw [Function.update_of_ne (by omega), Function.update_self, e0.1]; rfl
          · rw [Function.update_of_ne (by omega), Function.update_of_ne (by omega), e1.1]; rfl
          · rw [Function.update_of_ne (by omega), Function.update_of_ne (by omega), e2.1]; rfl
          · rw [Function.update_self]
            have : f1.val (G.pos ie * 6 + 3) = _ := e0.2
            rw [this]; rfl
          · rw [Function.update_of_ne (by omega), Function.update_of_ne (by omega)]
            exact e1.2
          · rw [Function.update_of_ne (by omega), Function.update_of_ne (by omega)]
            exact e2.2
        · have hp := G.pos_lt (j := ie) (k := k) (by omega) ho
          rw [Function.update_of_ne (by omega), Function.update_of_ne (by omega), b3 _ (by omega)]
          exact h3 ie (by omega) ho i hi
      · rw [if_neg hw]
        refine ⟨_, rfl, (G.pos_not_own hw).symm, h2, fun ie hie ho i hi => ?_⟩
        have : ie ≠ k := fun h => hw (h ▸ ho)
        exact h3 ie (by omega) ho i hi)
  refine ⟨s.2, ?_, a3, a4⟩
  unfold reconstructB
  rw [a1]
  rfl

/-! ### Fluxes -/

/-- the left state of internal edge `ie` -/
noncomputable def faceL (l : Limiter) (G : GTables) (u : Arr ℝ) (X Y : ℕ → ℕ → ℝ) (ie : ℕ) : Cons :=
  ⟨max 0 (faceEntry l G u X Y ie 0), faceEntry l G u X Y ie 1, faceEntry l G u X Y ie 2⟩

/-- the right state of internal edge `ie` -/
noncomputable def faceR (l : Limiter) (G : GTables) (u : Arr ℝ) (X Y : ℕ → ℕ → ℝ) (ie : ℕ) : Cons :=
  ⟨max 0 (faceEntry l G u X Y ie 3), faceEntry l G u X Y ie 4, faceEntry l G u X Y ie 5⟩

/-- The arrays of normals hold those of the owned edges in packed order. -/
def Batch.HasPackedNormals (b : Batch) (G : GTables) : Prop :=
  ∀ ie < G.T.internal.len, G.own ie = true →
    b.sn.val (G.pos ie) = (G.medge ie).sn ∧ b.cn.val (G.pos ie) = (G.medge ie).cn

theorem packedNormals_spec (hG : G.Valid nc n ne nv) :
    ∃ s, loopM (packedNormalStep G.T) G.T.internal.len (0, Batch.create (G.pos G.T.internal.len)) = some s ∧
      s.2.Sized (G.pos G.T.internal.len) ∧ s.2.HasPackedNormals G := by
  obtain ⟨s, a1, a2, a3, a4⟩ := loopM_inv (step := packedNormalStep G.T) (n := G.T.internal.len)
    (s := (0, Batch.create (G.pos G.T.internal.len)))
    (fun k s => s.1 = G.pos k ∧ s.2.Sized (G.pos G.T.internal.len) ∧ ∀ ie < k, G.own ie = true →
      s.2.sn.val (G.pos ie) = (G.medge ie).sn ∧ s.2.cn.val (G.pos ie) = (G.medge ie).cn)
    ⟨rfl, Batch.create_sized _, by intro ie hie; omega⟩ (by
      rintro k hk ⟨oe, b⟩ ⟨h1, h2, h3⟩
      dsimp only at h1 h2 h3
      subst h1
      have hid := hG.T.ids k hk
      unfold packedNormalStep
      rw [Arr.get_some hk]
      show ∃ s', (G.T.edgeOwned.get (G.T.internal.val k)).bind _ = some s' ∧ _
      rw [Arr.get_some (by rw [hG.edgeOwned]; exact hid)]
      show ∃ s', (if G.own k = true then _ else _) = some s' ∧ _
      by_cases hw : G.own k = true
      · have hlt := G.pos_lt hk hw
        rw [if_pos hw, Arr.get_some (by rw [hG.T.cn]; exact hid)]
        show ∃ s', (b.cn.put (G.pos k) _).bind _ = some s' ∧ _
        rw [Arr.put_some _ (by rw [h2.cn]; exact hlt)]
        show ∃ s', (G.T.sn.get _).bind _ = some s' ∧ _
        rw [Arr.get_some (by rw [hG.T.sn]; exact hid)]
        show ∃ s', (b.sn.put (G.pos k) _).map _ = some s' ∧ _
        rw [Arr.put_some _ (by rw [h2.sn]; exact hlt)]
        refine ⟨_, rfl, (G.pos_own hw).symm, ⟨h2.left, h2.right, h2.sn, h2.cn, h2.flux⟩, fun ie hie ho => ?_⟩
        show Function.update b.sn.val _ _ (G.pos ie) = _ ∧ Function.update b.cn.val _ _ (G.pos ie) = _
        by_cases h : ie = k
        · subst h
          rw [Function.update_self, Function.update_self]
          exact ⟨rfl, rfl⟩
        · have hp := G.pos_lt (j := ie) (k := k) (by omega) ho
          rw [Function.update_of_ne (by omega), Function.update_of_ne (by omega)]
          exact h3 ie (by omega) ho
      · rw [if_neg hw]
        refine ⟨_, rfl, (G.pos_not_own hw).symm, h2, fun ie hie ho => ?_⟩
        have : ie ≠ k := fun h => hw (h ▸ ho)
        exact h3 ie (by omega) ho)
  exact ⟨s, a1, a3, a4⟩

theorem putFace_some {a : Arr RState} {e : ℕ} {q : Arr ℝ} {i : ℕ} (he : e < a.len) (hi : i + 2 < q.len) :
    putFace a e q i = some ⟨a.len, Function.update a.val e
      ((a.val e).withCons ⟨max 0 (q.val (i + 0)), q.val (i + 1), q.val (i + 2)⟩)⟩ := by
  unfold putFace
  rw [Arr.get_some (by omega), Arr.get_some (by omega), Arr.get_some (by omega)]
  show (a.get e).bind _ = _
  rw [Arr.get_some he]
  exact Arr.put_some _ he

theorem packedGather_spec (hG : G.Valid nc n ne nv) {l : Limiter} {u : Arr ℝ} {X Y : ℕ → ℕ → ℝ} {q : Arr ℝ}
    (hq : q.len = G.pos G.T.internal.len * 6)
    (hqv : ∀ ie < G.T.internal.len, G.own ie = true → ∀ i < 6, q.val (G.pos ie * 6 + i) = faceEntry l G u X Y ie i)
    {b : Batch} (hb : b.Sized (G.pos G.T.internal.len)) :
    ∃ s, loopM (packedGatherStep G.T q) G.T.internal.len (0, b) = some s ∧
      (s.2.Sized (G.pos G.T.internal.len) ∧ s.2.sn = b.sn ∧ s.2.cn = b.cn ∧ s.2.flux = b.flux) ∧
      ∀ ie < G.T.internal.len, G.own ie = true →
        (∃ x y, s.2.left.val (G.pos ie) = (⟨0, 0, 0, x, y⟩ : RState).withCons (faceL l G u X Y ie)) ∧
        (∃ x y, s.2.right.val (G.pos ie) = (⟨0, 0, 0, x, y⟩ : RState).withCons (faceR l G u X Y ie)) := by
  obtain ⟨s, a1, a2, a3, a4⟩ := loopM_inv (step := packedGatherStep G.T q) (n := G.T.internal.len) (s := (0, b))
    (fun k s => s.1 = G.pos k ∧ (s.2.Sized (G.pos G.T.internal.len) ∧ s.2.sn = b.sn ∧ s.2.cn = b.cn ∧ s.2.flux = b.flux) ∧
      ∀ ie < k, G.own ie = true →
        (∃ x y, s.2.left.val (G.pos ie) = (⟨0, 0, 0, x, y⟩ : RState).withCons (faceL l G u X Y ie)) ∧
        (∃ x y, s.2.right.val (G.pos ie) = (⟨0, 0, 0, x, y⟩ : RState).withCons (faceR l G u X Y ie)))
    ⟨rfl, ⟨hb, rfl, rfl, rfl⟩, by intro ie hie; omega⟩ (by
      rintro k hk ⟨oe, s⟩ ⟨h1, ⟨h2, h2a, h2b, h2c⟩, h3⟩
      dsimp only at h1 h2 h3 h2a h2b h2c
      subst h1
      have hid := hG.T.ids k hk
      unfold packedGatherStep
      rw [Arr.get_some hk]
      show ∃ s', (G.T.edgeOwned.get (G.T.internal.val k)).bind _ = some s' ∧ _
      rw [Arr.get_some (by rw [hG.edgeOwned]; exact hid)]
      show ∃ s', (if G.own k = true then _ else _) = some s' ∧ _
      by_cases hw : G.own k = true
      · have hlt := G.pos_lt hk hw
        rw [if_pos hw]
        show ∃ s', (putFace s.left (G.pos k) q (G.pos k * 6)).bind _ = some s' ∧ _
        rw [putFace_some (by rw [h2.left]; exact hlt) (by omega)]
        show ∃ s', (putFace s.right (G.pos k) q (G.pos k * 6 + 3)).map _ = some s' ∧ _
        rw [putFace_some (by rw [h2.right]; exact hlt) (by omega)]
        refine ⟨_, rfl, (G.pos_own hw).symm, ⟨⟨h2.left, h2.right, h2.sn, h2.cn, h2.flux⟩, h2a, h2b, h2c⟩, fun ie hie ho => ?_⟩
        show (∃ x y, Function.update s.left.val _ _ (G.pos ie) = _) ∧ ∃ x y, Function.update s.right.val _ _ (G.pos ie) = _
        by_cases h : ie = k
        · subst h
          have e := hqv ie hk ho
          rw [Function.update_self, Function.update_self, e 0 (by omega), e 1 (by omega), e 2 (by omega)]
          have e3 : q.val (G.pos ie * 6 + 3 + 0) = _ := e 3 (by omega)
          have e4 : q.val (G.pos ie * 6 + 3 + 1) = _ := e 4 (by omega)
          have e5 : q.val (G.pos ie * 6 + 3 + 2) = _ := e 5 (by omega)
          rw [e3, e4, e5]
          exact ⟨⟨_, _, rfl⟩, ⟨_, _, rfl⟩⟩
        · have hp := G.pos_lt (j := ie) (k := k) (by omega) ho
          rw [Function.update_of_ne (by omega), Function.update_of_ne (by omega)]
          exact h3 ie (by omega) ho
      · rw [if_neg hw]
        refine ⟨_, rfl, (G.pos_not_own hw).symm, ⟨h2, h2a, h2b, h2c⟩, fun ie hie ho => ?_⟩
        have : ie ≠ k := fun h => hw (h ▸ ho)
        exact h3 ie (by omega) ho)
  exact ⟨s, a1, a3, a4⟩

/-- the tables with all cells of a process counted as owned, in local order -/
def Tables.everyCell (T : Tables) (nc : ℕ) : Tables := { T with owned := ⟨nc, fun _ => true⟩, l2o := ⟨nc, fun c => c⟩ }

theorem addIfOwned_everyCell (T : Tables) (flux : Arr Num) (e : ℕ) {c nc : ℕ} (hc : c < nc) (s : ℝ) (i : ℕ) (f : Arr Num) :
    addIfOwned 3 (T.everyCell nc) flux e c s i f = addEntry 3 flux e c s i f := by
  unfold addIfOwned
  rw [Arr.get_some (show c < (T.everyCell nc).owned.len from hc)]
  rw [Option.bind_some, if_pos (show (T.everyCell nc).owned.val c = true from rfl),
    Arr.get_some (show c < (T.everyCell nc).l2o.len from hc)]
  rfl

theorem addToBoth_eq (T : Tables) (flux : Arr Num) (oe id : ℕ) {l r nc : ℕ} (hl : l < nc) (hr : r < nc) (f : Arr Num) :
    addToBoth T flux oe id l r f = addToCells 3 (T.everyCell nc) flux oe id l r f := by
  unfold addToBoth addToCells
  show _ = (T.elen.get id).bind fun len => (T.area.get l).bind fun al => (T.area.get r).bind fun ar => _
  have : ∀ (a b : ℝ) (i : ℕ) (f : Arr Num), (addIfOwned 3 (T.everyCell nc) flux oe l a i f).bind
      (addIfOwned 3 (T.everyCell nc) flux oe r b i) = (addEntry 3 flux oe l a i f).bind (addEntry 3 flux oe r b i) := by
    intro a b i f
    rw [addIfOwned_everyCell T flux oe hl]
    congr 1
    funext x
    exact addIfOwned_everyCell T flux oe hr b i x
  simp only [this]

/-- what internal edge `ie` adds to entry `(c, i)` of the local vector -/
noncomputable def packedTerm (P : FlowParams) (l : Limiter) (G : GTables) (u : Arr ℝ) (X Y : ℕ → ℕ → ℝ) (c i ie : ℕ) : Num :=
  if G.own ie = true then
    (recv true (G.L ie) c (Num.scale ((usedFlux P.g P.tinyH (velocities P.tinyH P.hAnuga (faceL l G u X Y ie))
      (velocities P.tinyH P.hAnuga (faceR l G u X Y ie)) (G.medge ie).sn (G.medge ie).cn).map fun F => F.comp i)
      (-(G.medge ie).len / G.T.area.val (G.L ie)))).add
    (recv true (G.R ie) c (Num.scale ((usedFlux P.g P.tinyH (velocities P.tinyH P.hAnuga (faceL l G u X Y ie))
      (velocities P.tinyH P.hAnuga (faceR l G u X Y ie)) (G.medge ie).sn (G.medge ie).cn).map fun F => F.comp i)
      ((G.medge ie).len / G.T.area.val (G.R ie))))
  else some 0

theorem packedAdd_spec (hG : G.Valid nc n ne nv) {P : FlowParams} {l : Limiter} {u : Arr ℝ} {X Y : ℕ → ℕ → ℝ} {b : Batch}
    (hb : b.Sized (G.pos G.T.internal.len))
    (hst : ∀ ie < G.T.internal.len, G.own ie = true →
      (b.left.val (G.pos ie)).h = (faceL l G u X Y ie).h ∧ (b.right.val (G.pos ie)).h = (faceR l G u X Y ie).h ∧
      ∀ i < 3, b.flux.val (3 * G.pos ie + i) = (roeFlux P.g
        (velocities P.tinyH P.hAnuga (faceL l G u X Y ie)) (velocities P.tinyH P.hAnuga (faceR l G u X Y ie))
        (G.medge ie).sn (G.medge ie).cn).map fun F => F.1.comp i) :
    ∃ s, loopM (packedAddStep P G.T b) G.T.internal.len (0, Arr.calloc (3 * nc) (some 0)) = some s ∧ s.2.len = 3 * nc ∧
      ∀ c i, i < 3 → s.2.val (3 * c + i) =
        (List.range G.T.internal.len).foldl (fun (a : Num) (ie : ℕ) => a.add (packedTerm P l G u X Y c i ie)) (some 0) := by
  obtain ⟨s, a1, a2, a3, a4⟩ := loopM_inv (step := packedAddStep P G.T b) (n := G.T.internal.len)
    (s := (0, Arr.calloc (3 * nc) (some 0)))
    (fun k s => s.1 = G.pos k ∧ s.2.len = 3 * nc ∧ ∀ c i, i < 3 → s.2.val (3 * c + i) =
      (List.range k).foldl (fun (a : Num) (ie : ℕ) => a.add (packedTerm P l G u X Y c i ie)) (some 0))
    ⟨rfl, rfl, by intro c i _; rfl⟩ (by
      rintro k hk ⟨oe, f⟩ ⟨h1, h2, h3⟩
      dsimp only at h1 h2 h3
      subst h1
      have hid := hG.T.ids k hk
      unfold packedAddStep
      rw [Arr.get_some hk]
      show ∃ s', (G.T.edgeOwned.get (G.T.internal.val k)).bind _ = some s' ∧ _
      rw [Arr.get_some (by rw [hG.edgeOwned]; exact hid)]
      show ∃ s', (if G.own k = true then _ else _) = some s' ∧ _
      by_cases hw : G.own k = true
      · have hlt := G.pos_lt hk hw
        obtain ⟨hL, hR, hF⟩ := hst k hk hw
        rw [if_pos hw, cellsOfEdge_some hG hk]
        show ∃ s', (G.T.elen.get (G.T.internal.val k)).bind _ = some s' ∧ _
        rw [Arr.get_some (by rw [hG.T.elen]; exact hid)]
        show ∃ s', (b.left.get (G.pos k)).bind _ = some s' ∧ _
        rw [Arr.get_some (by rw [hb.left]; exact hlt)]
        show ∃ s', (b.right.get (G.pos k)).bind _ = some s' ∧ _
        rw [Arr.get_some (by rw [hb.right]; exact hlt)]
        show ∃ s', (if ¬ ((b.right.val (G.pos k)).h < P.tinyH ∧ (b.left.val (G.pos k)).h < P.tinyH) then _ else _) = some s' ∧ _
        rw [hL, hR]
        by_cases hd : (faceR l G u X Y k).h < P.tinyH ∧ (faceL l G u X Y k).h < P.tinyH
        · rw [if_neg (not_not.mpr hd)]
          refine ⟨_, rfl, (G.pos_own hw).symm, h2, fun c i hi => ?_⟩
          show f.val (3 * c + i) = _
          rw [List.range_succ, List.foldl_append, ← h3 c i hi]
          show _ = (f.val (3 * c + i)).add (packedTerm P l G u X Y c i k)
          unfold packedTerm usedFlux
          rw [if_pos hw, if_neg (by rw [velocities_depth, velocities_depth]; exact not_not.mpr hd), Option.map_some, comp_zero,
            Num.scale_zero, Num.scale_zero, recv_zero, recv_zero, Num.add_zero', Num.add_zero']
        · rw [if_pos hd, addToBoth_eq G.T b.flux (G.pos k) (G.T.internal.val k) (hG.L_lt hk) (hG.R_lt hk)]
          obtain ⟨f', e1, e2, e3⟩ := addToCells_spec (nd := 3) (T := G.T.everyCell nc) (n := nc) (flux := b.flux) (f := f) (hG.L_lt hk) (hG.R_lt hk) rfl rfl
            hG.T.area (fun c hc _ => hc) (show G.T.internal.val k < G.T.elen.len by rw [hG.T.elen]; exact hid) h2 hb.flux hlt
          show ∃ s', (addToCells 3 (G.T.everyCell nc) b.flux (G.pos k) (G.T.internal.val k) (G.L k) (G.R k) f).map _ = some s' ∧ _
          rw [e1]
          refine ⟨_, rfl, (G.pos_own hw).symm, e2.trans h2, fun c i hi => ?_⟩
          show f'.val (3 * c + i) = _
          rw [List.range_succ, List.foldl_append, ← h3 c i hi, e3 c i hi, hF i hi, Num.add_assoc']
          show _ = (f.val (3 * c + i)).add (packedTerm P l G u X Y c i k)
          unfold packedTerm usedFlux
          rw [if_pos hw, if_pos (by rw [velocities_depth, velocities_depth]; exact hd), Option.map_map]
          rfl
      · rw [if_neg hw]
        refine ⟨_, rfl, (G.pos_not_own hw).symm, h2, fun c i hi => ?_⟩
        show f.val (3 * c + i) = _
        rw [List.range_succ, List.foldl_append, ← h3 c i hi]
        show _ = (f.val (3 * c + i)).add (packedTerm P l G u X Y c i k)
        unfold packedTerm
        rw [if_neg hw, Num.add_zero'])
  exact ⟨s, a1, a3, a4⟩

/-- The memory of the operator of a process has its lengths, and holds coefficients and normals. -/
structure Packed.Ready (M : Packed) (a : PProc) : Prop where
  batch : M.batch.Sized a.no
  normals : M.batch.HasPackedNormals a.G
  coeffLen : M.coeffs.len = a.G.T.internal.len * 4
  coeffs : ∀ ie < a.G.T.internal.len, ∀ k < 4, M.coeffs.val (ie * 4 + k) = coeffEntry a.G ie k
  grad : ∀ k < 3, (M.grad k).len = a.nc * 2
  qFace : M.qFace.len = a.no * 6

theorem createPacked_spec {a : PProc} (hG : a.G.Valid a.nc a.n ne nv) (hno : a.no = a.G.pos a.G.T.internal.len) :
    ∃ M, createPacked a.G a.nc a.no = some M ∧ M.Ready a := by
  obtain ⟨co, a1, a2, a3⟩ := coeffsB_spec hG (co := Arr.calloc (a.G.T.internal.len * 4) 0) rfl
  obtain ⟨b, b1, b2, b3⟩ := packedNormals_spec hG
  unfold createPacked
  rw [a1, hno]
  show ∃ M, (loopM _ _ _).map _ = some M ∧ _
  rw [b1]
  exact ⟨_, rfl, ⟨by rw [hno]; exact b2, b3, a2, a3, fun _ _ => rfl, by rw [hno]; rfl⟩⟩

theorem packedFluxes_spec {a : PProc} (hG : a.G.Valid a.nc a.n ne nv) (hno : a.no = a.G.pos a.G.T.internal.len) (P : FlowParams) (l : Limiter)
    {M : Packed} (hM : M.Ready a) {g : ℕ → Arr ℝ} {X Y : ℕ → ℕ → ℝ} (hg : ∀ k < 3, GradIs a.nc (g k) (X k) (Y k)) {u : Arr ℝ}
    (hu : u.len = 3 * a.nc) :
    ∃ r, packedFluxes P l a M g u = some r ∧ r.1.Ready a ∧ r.2.len = 3 * a.nc ∧ ∀ c i, i < 3 → r.2.val (3 * c + i) =
      (List.range a.G.T.internal.len).foldl (fun (x : Num) (ie : ℕ) => x.add (packedTerm P l a.G u X Y c i ie)) (some 0) := by
  obtain ⟨q, q1, q2, q3⟩ := reconstructB_spec hG l hu hg (f := M.qFace) (by rw [hM.qFace, hno])
  obtain ⟨b1, g1, ⟨g2, g3, g4, g5⟩, g6⟩ := packedGather_spec hG (q2.trans (by rw [hM.qFace, hno])) q3 (b := M.batch) (hno ▸ hM.batch)
  unfold packedFluxes
  rw [q1]
  show ∃ r, (loopM (packedGatherStep a.G.T q) a.G.T.internal.len (0, M.batch)).bind _ = some r ∧ _
  rw [g1]
  show ∃ r, (velocitiesB P.tinyH P.hAnuga b1.2.left).bind _ = some r ∧ _
  rw [velocitiesB_eq]
  show ∃ r, (velocitiesB P.tinyH P.hAnuga b1.2.right).bind _ = some r ∧ _
  rw [velocitiesB_eq]
  obtain ⟨F, r1, r2, r3⟩ := roeB_spec (g := P.g) (L := b1.2.left.upto b1.2.left.len fun _ s => s.withVelocities P.tinyH P.hAnuga)
    (R := b1.2.right.upto b1.2.right.len fun _ s => s.withVelocities P.tinyH P.hAnuga) g2.left g2.right g2.sn g2.cn g2.flux
  show ∃ r, (roeB P.g _ _ b1.2.sn b1.2.cn b1.2.flux).bind _ = some r ∧ _
  rw [r1]
  have hsz : (⟨b1.2.left.upto b1.2.left.len fun _ s => s.withVelocities P.tinyH P.hAnuga,
      b1.2.right.upto b1.2.right.len fun _ s => s.withVelocities P.tinyH P.hAnuga, b1.2.sn, b1.2.cn, F⟩ : Batch).Sized
        (a.G.pos a.G.T.internal.len) :=
    ⟨g2.left, g2.right, g2.sn, g2.cn, r2.trans g2.flux⟩
  obtain ⟨f', c1, c2, c3⟩ := packedAdd_spec hG (P := P) (l := l) (u := u) (X := X) (Y := Y) hsz (by
    intro ie hie ho
    obtain ⟨⟨x, y, hx⟩, ⟨z, w, hz⟩⟩ := g6 ie hie ho
    obtain ⟨hs, hc⟩ := hM.normals ie hie ho
    have hlt := a.G.pos_lt hie ho
    have hl : (b1.2.left.upto b1.2.left.len fun _ s => s.withVelocities P.tinyH P.hAnuga).val (a.G.pos ie) =
        (b1.2.left.val (a.G.pos ie)).withVelocities P.tinyH P.hAnuga := upto_val_lt (by rw [g2.left]; exact hlt)
    have hrr : (b1.2.right.upto b1.2.right.len fun _ s => s.withVelocities P.tinyH P.hAnuga).val (a.G.pos ie) =
        (b1.2.right.val (a.G.pos ie)).withVelocities P.tinyH P.hAnuga := upto_val_lt (by rw [g2.right]; exact hlt)
    refine ⟨?_, ?_, ?_⟩
    · show ((b1.2.left.upto _ _).val (a.G.pos ie)).h = _
      rw [hl, withVelocities_h, hx]; rfl
    · show ((b1.2.right.upto _ _).val (a.G.pos ie)).h = _
      rw [hrr, withVelocities_h, hz]; rfl
    · intro i hi
      show F.val (3 * a.G.pos ie + i) = _
      rw [r3 _ hlt i hi, hl, hrr, withVelocities_prim, withVelocities_prim, hx, hz, g3, g4, hs, hc]
      rfl)
  show ∃ r, (loopM _ a.G.T.internal.len _).map _ = some r ∧ _
  rw [c1]
  refine ⟨_, rfl, ⟨?_, ?_, hM.coeffLen, hM.coeffs, fun k hk => (hg k hk).1, ?_⟩, c2, c3⟩
  · rw [hno]; exact hsz
  · intro ie hie ho
    show b1.2.sn.val _ = _ ∧ b1.2.cn.val _ = _
    rw [g3, g4]
    exact hM.normals ie hie ho
  · exact q2.trans hM.qFace

/-! ### The models that treat one edge after the other -/

/-- the process as `SecondOrder.lean` has it -/
noncomputable def PProc.mproc (a : PProc) : MProc where
  pm := meshOf a.G.T [] a.nc
  x := fun c => (a.G.centroids.val c).1
  y := fun c => (a.G.centroids.val c).2
  edges := (List.range a.G.T.internal.len).map a.G.medge

theorem mproc_ls (a : PProc) : a.mproc.ls = a.G.ls := by
  unfold MProc.ls GTables.ls PProc.mproc
  rw [LSMesh.mk.injEq]
  refine ⟨rfl, rfl, ?_⟩
  rw [List.map_map]
  rfl

theorem addAt_comp (f : ℕ → Flux) (c : ℕ) (F : Flux) (s : ℝ) (o i : ℕ) :
    (some ((addAt f c (F.smul s) o).comp i) : Num) =
      Num.add (some ((f o).comp i)) (recv true c o (Num.scale (some (F.comp i)) s)) := by
  unfold addAt recv
  by_cases h : o = c
  · rw [if_pos h, if_pos ⟨rfl, h.symm⟩, comp_add, comp_smul]; rfl
  · rw [if_neg h, if_neg (fun q => h q.2.symm), Num.add_zero']

/-- the six values of an edge as `reconstructEdge` has them -/
theorem reconstructEdge_states (l : Limiter) (G : GTables) (u : Arr ℝ) (X Y : ℕ → ℕ → ℝ) (P : FlowParams) (ie : ℕ) :
    rStates P (reconstructEdge l G.ls (fieldOf (stateAt u)) (⟨X 0, X 1, X 2⟩, ⟨Y 0, Y 1, Y 2⟩) (G.medge ie)) =
      (velocities P.tinyH P.hAnuga (faceL l G u X Y ie), velocities P.tinyH P.hAnuga (faceR l G u X Y ie)) := rfl

theorem packed_entry (P : FlowParams) (l : Limiter) (G : GTables) (u : Arr ℝ) (X Y : ℕ → ℕ → ℝ) (c i : ℕ) :
    ∀ (es : List ℕ) (f g : ℕ → Flux),
      (((es.map G.medge).filter MEdge.owned).map
        (reconstructEdge l G.ls (fieldOf (stateAt u)) (⟨X 0, X 1, X 2⟩, ⟨Y 0, Y 1, Y 2⟩))).foldlM
          (interiorEdge2R P G.T.area.val) f = some g →
      es.foldl (fun (a : Num) (ie : ℕ) => a.add (packedTerm P l G u X Y c i ie)) (some ((f c).comp i)) = some ((g c).comp i) := by
  intro es
  induction es with
  | nil => intro f g h; cases h; rfl
  | cons e es ih =>
    intro f g h
    rw [List.foldl_cons]
    by_cases hw : G.own e = true
    · rw [List.map_cons, List.filter_cons_of_pos (show (G.medge e).owned = true from hw), List.map_cons] at h
      obtain ⟨f', h1, h2⟩ := foldlM_cons_some h
      rw [← ih f' g h2]
      congr 1
      unfold interiorEdge2R at h1
      rw [reconstructEdge_states] at h1
      obtain ⟨F, hF, hf'⟩ := Option.map_eq_some_iff.mp h1
      unfold packedTerm
      have hF' : usedFlux P.g P.tinyH (velocities P.tinyH P.hAnuga (faceL l G u X Y e))
          (velocities P.tinyH P.hAnuga (faceR l G u X Y e)) (G.medge e).sn (G.medge e).cn = some F := hF
      rw [if_pos hw, hF', ← hf', addAt_comp, addAt_comp, Num.add_assoc']
      rfl
    · rw [List.map_cons, List.filter_cons_of_neg (show ¬ (G.medge e).owned = true from hw)] at h
      rw [← ih f g h]
      congr 1
      unfold packedTerm
      rw [if_neg hw, Num.add_zero']

/-- a global vector after all processes have written the entries of their owned cells -/
theorem communicated_owned (h : Procs.Valid pr root gid nes nvs) (v : Fin N → ℕ → ℝ) {p : Fin N} {c : ℕ} (hc : c < (pr p).nc)
    (hw : (pr p).G.T.owned.val c = true) (q : Fin N) {d : ℕ} (hd : gid q d = gid p c) :
    communicated (fun p => (pr p).mproc) gid v q d = v p c := by
  unfold communicated
  have key : ∀ (ws : List (ℕ × ℝ)) (g : ℕ → ℝ), (∀ w ∈ ws, w.1 = gid p c → w.2 = v p c) →
      (g (gid p c) = v p c ∨ ∃ w ∈ ws, w.1 = gid p c) →
      ws.foldl (fun (g : ℕ → ℝ) w => Function.update g w.1 w.2) g (gid p c) = v p c := by
    intro ws
    induction ws with
    | nil => intro g _ h2; simpa using h2
    | cons w ws ih =>
      intro g h1 h2
      rw [List.foldl_cons]
      refine ih _ (fun w' hw' => h1 w' (by simp [hw'])) ?_
      by_cases hh : w.1 = gid p c
      · left
        rw [hh, Function.update_self]
        exact h1 w (by simp) hh
      · rcases h2 with h2 | ⟨w', hw', h2⟩
        · left
          rw [Function.update_of_ne (fun q => hh q.symm)]
          exact h2
        · rcases List.mem_cons.mp hw' with rfl | hw'
          · exact absurd h2 hh
          · exact Or.inr ⟨w', hw', h2⟩
  rw [hd]
  refine key _ _ ?_ (Or.inr ⟨(gid p c, v p c), ?_, rfl⟩)
  · intro w hw' hg
    unfold gradWrites at hw'
    simp only [List.mem_flatMap, List.mem_finRange, true_and, List.mem_map, List.mem_filter, List.mem_range] at hw'
    obtain ⟨p', c', ⟨hc', ho'⟩, rfl⟩ := hw'
    have := h.unique p' p c' hc' c hc ho' hw hg
    rw [Prod.mk.injEq] at this
    obtain ⟨rfl, rfl⟩ := this
    rfl
  · unfold gradWrites
    simp only [List.mem_flatMap, List.mem_finRange, true_and, List.mem_map, List.mem_filter, List.mem_range]
    exact ⟨p, c, ⟨hc, hw⟩, rfl⟩

end RDy
