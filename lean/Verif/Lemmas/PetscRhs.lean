import Verif.Model.PetscRhs
import Verif.Lemmas.BatchedRun
import Mathlib.Tactic

/-! Lemmas about the right-hand side of the PETSc backend as assembled (`Model/PetscRhs.lean`). -/

namespace RDy

/-! ### Bed elevations -/

/-- What the tables of vertices have to satisfy (`nc` local cells). -/
structure BedTables.Valid (V : BedTables) (nc : ℕ) : Prop where
  offsets : V.offsets.len = nc + 1
  count : V.count.len = nc
  centroidZ : V.centroidZ.len = nc
  dzdx : V.dzdx.len = nc
  dzdy : V.dzdy.len = nc
  width : ∀ c < nc, V.offsets.val (c + 1) = V.offsets.val c + V.count.val c
  pos : ∀ c < nc, 0 < V.count.val c
  ids : ∀ c < nc, V.offsets.val (c + 1) ≤ V.ids.len
  z : ∀ i < V.ids.len, V.ids.val i < V.z.len

/-- the elevation of the bed of cell `c` as the operator has it -/
noncomputable def BedTables.zcOf (V : BedTables) (c : ℕ) : ℝ :=
  if V.fromFile then V.centroidZ.val c
  else (∑ k ∈ Finset.range (V.count.val c), V.z.val (V.ids.val (V.offsets.val c + k))) / V.count.val c

theorem zSum_spec (V : BedTables) (a : ℕ) : ∀ n, (∀ k < n, a + k < V.ids.len) → (∀ i < V.ids.len, V.ids.val i < V.z.len) →
    loopM (zSumStep V a) n 0 = some (∑ k ∈ Finset.range n, V.z.val (V.ids.val (a + k))) := by
  intro n
  induction n with
  | zero => intro _ _; rfl
  | succ n ih =>
    intro h1 h2
    show (loopM (zSumStep V a) n 0).bind _ = _
    rw [ih (fun k hk => h1 k (by omega)) h2]
    show zSumStep V a _ n = _
    unfold zSumStep
    rw [Arr.get_some (h1 n (by omega))]
    show (V.z.get _).map _ = _
    rw [Arr.get_some (h2 _ (h1 n (by omega)))]
    exact congrArg some (Finset.sum_range_succ (fun k => V.z.val (V.ids.val (a + k))) n).symm

theorem createZc_spec {V : BedTables} {nc : ℕ} (hV : V.Valid nc) :
    ∃ zc, createZc V nc = some zc ∧ zc.len = nc ∧ ∀ c < nc, zc.val c = V.zcOf c := by
  unfold createZc
  refine loopM_inv (step := zcStep V) (n := nc) (s := Arr.calloc nc 0)
    (fun k s => s.len = nc ∧ ∀ c < k, s.val c = V.zcOf c) ⟨rfl, by intro c hc; omega⟩ ?_
  rintro k hk s ⟨hs, hv⟩
  have key : ∀ x : ℝ, x = V.zcOf k → ∃ s', s.put k x = some s' ∧ s'.len = nc ∧ ∀ c < k + 1, s'.val c = V.zcOf c := by
    intro x hx
    refine ⟨_, Arr.put_some x (by omega), hs, ?_⟩
    intro c hc
    show Function.update s.val k x c = _
    by_cases h : c = k
    · subst h; rw [Function.update_self, hx]
    · rw [Function.update_of_ne h]; exact hv c (by omega)
  unfold zcStep
  by_cases hf : V.fromFile = true
  · rw [if_pos hf, Arr.get_some (by rw [hV.centroidZ]; exact hk)]
    refine key _ ?_
    unfold BedTables.zcOf
    rw [if_pos hf]
  · rw [if_neg hf, Arr.get_some (by rw [hV.offsets]; omega)]
    show ∃ s', (V.offsets.get (k + 1)).bind _ = some s' ∧ _
    rw [Arr.get_some (by rw [hV.offsets]; omega)]
    have hw := hV.width k hk
    have hd : V.offsets.val (k + 1) - V.offsets.val k = V.count.val k := by omega
    show ∃ s', (loopM (zSumStep V _) (V.offsets.val (k + 1) - V.offsets.val k) 0).bind _ = some s' ∧ _
    rw [hd, zSum_spec V _ _ (fun j hj => by have := hV.ids k hk; omega) hV.z]
    show ∃ s', (V.count.get k).bind _ = some s' ∧ _
    rw [Arr.get_some (by rw [hV.count]; exact hk)]
    show ∃ s', (if V.count.val k = 0 then _ else _) = some s' ∧ _
    rw [if_neg (by have := hV.pos k hk; omega)]
    refine key _ ?_
    unfold BedTables.zcOf
    rw [if_neg hf]

/-! ### The interior operator with hydrostatic reconstruction -/

theorem putHR_some {P : FlowParams} {a : Arr RState} {e : ℕ} {u : Arr ℝ} {c nc : ℕ} (z zmax : ℝ) (he : e < a.len) (hc : c < nc)
    (hu : u.len = 3 * nc) : ∃ a', putHR P a e u c z zmax = some a' ∧ a'.len = a.len ∧
      (a'.val e).prim = hrState P z zmax (stateAt u c) ∧ ∀ e', e' ≠ e → a'.val e' = a.val e' := by
  unfold putHR
  rw [Arr.get_some (by omega), Arr.get_some (by omega), Arr.get_some (by omega)]
  show ∃ a', (a.get e).bind _ = some a' ∧ _
  rw [Arr.get_some he]
  refine ⟨_, Arr.put_some _ he, rfl, ?_, fun e' h => Function.update_of_ne h ..⟩
  show (Function.update a.val e _ e).prim = _
  rw [Function.update_self]
  rfl

theorem hrGather_spec {P : FlowParams} {T : Tables} {nc n ne : ℕ} (hT : T.Valid nc n ne) {zc u : Arr ℝ} (hz : zc.len = nc)
    (hu : u.len = 3 * nc) {b : Batch} (hb : b.Sized T.internal.len) :
    ∃ b', loopM (hrGatherStep P T zc u) T.internal.len b = some b' ∧ b'.Sized T.internal.len ∧ b'.sn = b.sn ∧ b'.cn = b.cn ∧
      b'.flux = b.flux ∧ ∀ e < T.internal.len, ∀ r, T.rightOf (T.internal.val e) = some r →
        (b'.left.val e).prim = hrState P (zc.val (T.leftOf (T.internal.val e)))
          (max (zc.val (T.leftOf (T.internal.val e))) (zc.val r)) (stateAt u (T.leftOf (T.internal.val e))) ∧
        (b'.right.val e).prim = hrState P (zc.val r) (max (zc.val (T.leftOf (T.internal.val e))) (zc.val r)) (stateAt u r) := by
  obtain ⟨b', h1, h2, h3⟩ := loopM_inv (step := hrGatherStep P T zc u) (n := T.internal.len) (s := b)
    (fun k b' => (b'.Sized T.internal.len ∧ b'.sn = b.sn ∧ b'.cn = b.cn ∧ b'.flux = b.flux) ∧
      ∀ e < k, ∀ r, T.rightOf (T.internal.val e) = some r →
        (b'.left.val e).prim = hrState P (zc.val (T.leftOf (T.internal.val e)))
          (max (zc.val (T.leftOf (T.internal.val e))) (zc.val r)) (stateAt u (T.leftOf (T.internal.val e))) ∧
        (b'.right.val e).prim = hrState P (zc.val r) (max (zc.val (T.leftOf (T.internal.val e))) (zc.val r)) (stateAt u r))
    ⟨⟨hb, rfl, rfl, rfl⟩, by intro e he; omega⟩ (by
      rintro k hk s ⟨⟨hs, hs1, hs2, hs3⟩, hv⟩
      have hid := hT.ids k hk
      unfold hrGatherStep
      rw [Arr.get_some hk]
      show ∃ s', (T.cellIds.get (2 * T.internal.val k)).bind _ = some s' ∧ _
      rw [Arr.get_some (by rw [hT.cellIds]; omega)]
      show ∃ s', (T.cellIds.get (2 * T.internal.val k + 1)).bind _ = some s' ∧ _
      rw [Arr.get_some (by rw [hT.cellIds]; omega)]
      show ∃ s', (if T.cellIds.val (2 * T.internal.val k + 1) = -1 then _ else _) = some s' ∧ _
      by_cases hr : T.cellIds.val (2 * T.internal.val k + 1) = -1
      · rw [if_pos hr]
        refine ⟨s, rfl, ⟨hs, hs1, hs2, hs3⟩, ?_⟩
        intro e he r hh
        by_cases h : e = k
        · subst h; rw [rightOf_none hr] at hh; exact absurd hh (by simp)
        · exact hv e (by omega) r hh
      · obtain ⟨hl0, hl1⟩ := hT.left _ hid
        obtain ⟨hr0, hr1⟩ := (hT.right _ hid).resolve_left hr
        rw [if_neg hr, asIndex_some hl0]
        show ∃ s', (asIndex (T.cellIds.val (2 * T.internal.val k + 1))).bind _ = some s' ∧ _
        rw [asIndex_some hr0]
        show ∃ s', (zc.get _).bind _ = some s' ∧ _
        rw [Arr.get_some (by rw [hz]; exact hl1)]
        show ∃ s', (zc.get _).bind _ = some s' ∧ _
        rw [Arr.get_some (by rw [hz]; exact hr1)]
        obtain ⟨L, l1, l2, l3, l4⟩ := putHR_some (P := P) (a := s.left) (zc.val (T.cellIds.val (2 * T.internal.val k)).toNat)
          (max (zc.val (T.cellIds.val (2 * T.internal.val k)).toNat) (zc.val (T.cellIds.val (2 * T.internal.val k + 1)).toNat))
          (by rw [hs.left]; exact hk) hl1 hu
        obtain ⟨R, r1, r2, r3, r4⟩ := putHR_some (P := P) (a := s.right) (zc.val (T.cellIds.val (2 * T.internal.val k + 1)).toNat)
          (max (zc.val (T.cellIds.val (2 * T.internal.val k)).toNat) (zc.val (T.cellIds.val (2 * T.internal.val k + 1)).toNat))
          (by rw [hs.right]; exact hk) hr1 hu
        show ∃ s', (putHR P s.left k u _ _ _).bind _ = some s' ∧ _
        rw [l1]
        show ∃ s', (putHR P s.right k u _ _ _).bind _ = some s' ∧ _
        rw [r1]
        refine ⟨_, rfl, ⟨⟨l2.trans hs.left, r2.trans hs.right, hs.sn, hs.cn, hs.flux⟩, hs1, hs2, hs3⟩, ?_⟩
        intro e he r hh
        by_cases h : e = k
        · subst h
          rw [rightOf_some hr] at hh
          cases hh
          exact ⟨l3, r3⟩
        · show (L.val e).prim = _ ∧ (R.val e).prim = _
          rw [l4 e h, r4 e h]
          exact hv e (by omega) r hh)
  exact ⟨b', h1, h2.1, h2.2.1, h2.2.2.1, h2.2.2.2, h3⟩

theorem incr_some {f : Arr Num} {p : ℕ} (x : Num) (h : p < f.len) :
    incr f p x = some ⟨f.len, Function.update f.val p ((f.val p).add x)⟩ := by
  unfold incr
  rw [Arr.get_some h]
  exact Arr.put_some _ h

/-- what one edge adds in a cell: the correction -/
theorem addCorrection_spec {T : Tables} {c nc n : ℕ} (P : FlowParams) (h hrec sn cn s : ℝ) {f : Arr Num} (hc : c < nc)
    (how : T.owned.len = nc) (hl : T.l2o.len = nc) (ho : T.owned.val c = true → T.l2o.val c < n) (hf : f.len = 3 * n) :
    ∃ f', addCorrection T c (0.5 * P.g * (h * h - hrec * hrec)) sn cn s f = some f' ∧ f'.len = f.len ∧ ∀ o i, i < 3 →
      f'.val (3 * o + i) = (f.val (3 * o + i)).add
        (recv (T.owned.val c) (T.l2o.val c) o (some ((hrCorrection P h hrec sn cn).comp i * s))) := by
  unfold addCorrection
  rw [Arr.get_some (by omega)]
  show ∃ f', (if T.owned.val c = true then _ else _) = some f' ∧ _
  by_cases hw : T.owned.val c = true
  · have hlt := ho hw
    rw [if_pos hw, Arr.get_some (by omega)]
    show ∃ f', (incr f (3 * T.l2o.val c + 1) _).bind _ = some f' ∧ _
    rw [incr_some _ (by omega)]
    refine ⟨_, incr_some _ (show 3 * T.l2o.val c + 2 < f.len by omega), rfl, ?_⟩
    intro o i hi
    show Function.update (Function.update f.val (3 * T.l2o.val c + 1) _) (3 * T.l2o.val c + 2) _ (3 * o + i) = _
    unfold recv
    by_cases hoo : o = T.l2o.val c
    · subst hoo
      rw [if_pos ⟨hw, rfl⟩]
      interval_cases i
      · rw [Function.update_of_ne (by omega), Function.update_of_ne (by omega)]
        have : (hrCorrection P h hrec sn cn).comp 0 * s = 0 := by simp [hrCorrection, Flux.comp]
        rw [this, Num.add_zero']
      · rw [Function.update_of_ne (by omega), Function.update_self]
        rfl
      · rw [Function.update_self]
        show (Function.update f.val _ _ _).add _ = _
        rw [Function.update_of_ne (by omega)]
        rfl
    · rw [Function.update_of_ne (by omega), Function.update_of_ne (by omega), if_neg (fun q => hoo q.2.symm), Num.add_zero']
  · rw [if_neg hw]
    refine ⟨f, rfl, rfl, ?_⟩
    intro o i _
    unfold recv
    rw [if_neg (fun q => hw q.1), Num.add_zero']

/-- the reconstructed states of both sides of an edge between cells `l` and `r` -/
noncomputable def hrPair (P : FlowParams) (z : ℕ → ℝ) (u : Arr ℝ) (l r : ℕ) : Prim × Prim :=
  (hrState P (z l) (max (z l) (z r)) (stateAt u l), hrState P (z r) (max (z l) (z r)) (stateAt u r))

/-- what the edge `e` of the list of internal edges adds to entry `(o, i)` with hydrostatic reconstruction over the beds `z` -/
noncomputable def hrTerm (P : FlowParams) (T : Tables) (z : ℕ → ℝ) (u : Arr ℝ) (o i e : ℕ) : Num :=
  match T.rightOf (T.internal.val e) with
  | none => some 0
  | some r =>
    if (stateAt u r).h < P.tinyH ∧ (stateAt u (T.leftOf (T.internal.val e))).h < P.tinyH then some 0
    else
      (((recv (T.owned.val (T.leftOf (T.internal.val e))) (T.l2o.val (T.leftOf (T.internal.val e))) o
        (Num.scale ((hrFlux P (hrPair P z u (T.leftOf (T.internal.val e)) r).1 (hrPair P z u (T.leftOf (T.internal.val e)) r).2
          (T.sn.val (T.internal.val e)) (T.cn.val (T.internal.val e))).map fun F => F.comp i)
          (-(T.elen.val (T.internal.val e)) / T.area.val (T.leftOf (T.internal.val e))))).add
      (recv (T.owned.val r) (T.l2o.val r) o
        (Num.scale ((hrFlux P (hrPair P z u (T.leftOf (T.internal.val e)) r).1 (hrPair P z u (T.leftOf (T.internal.val e)) r).2
          (T.sn.val (T.internal.val e)) (T.cn.val (T.internal.val e))).map fun F => F.comp i)
          (T.elen.val (T.internal.val e) / T.area.val r)))).add
      (recv (T.owned.val (T.leftOf (T.internal.val e))) (T.l2o.val (T.leftOf (T.internal.val e))) o
        (some ((hrCorrection P (stateAt u (T.leftOf (T.internal.val e))).h (hrPair P z u (T.leftOf (T.internal.val e)) r).1.h
          (T.sn.val (T.internal.val e)) (T.cn.val (T.internal.val e))).comp i *
          (-(T.elen.val (T.internal.val e)) / T.area.val (T.leftOf (T.internal.val e))))))).add
      (recv (T.owned.val r) (T.l2o.val r) o
        (some ((hrCorrection P (stateAt u r).h (hrPair P z u (T.leftOf (T.internal.val e)) r).2.h
          (T.sn.val (T.internal.val e)) (T.cn.val (T.internal.val e))).comp i * (T.elen.val (T.internal.val e) / T.area.val r))))

theorem hrAdd_spec {P : FlowParams} {T : Tables} {nc n ne : ℕ} (hT : T.Valid nc n ne) {zc u : Arr ℝ} (hz : zc.len = nc)
    (hu : u.len = 3 * nc) {b : Batch} (hb : b.Sized T.internal.len) (hn : b.HasNormals T)
    (hst : ∀ e < T.internal.len, ∀ r, T.rightOf (T.internal.val e) = some r →
      ∀ i < 3, b.flux.val (3 * e + i) = (roeFlux P.g (hrPair P zc.val u (T.leftOf (T.internal.val e)) r).1
        (hrPair P zc.val u (T.leftOf (T.internal.val e)) r).2
        (T.sn.val (T.internal.val e)) (T.cn.val (T.internal.val e))).map fun F => F.1.comp i)
    {f : Arr Num} (hf : f.len = 3 * n) :
    ∃ f', loopM (hrAddStep P T zc u b) T.internal.len f = some f' ∧ f'.len = f.len ∧ ∀ o i, i < 3 →
      f'.val (3 * o + i) = (List.range T.internal.len).foldl (fun (a : Num) (e : ℕ) => a.add (hrTerm P T zc.val u o i e))
        (f.val (3 * o + i)) := by
  refine loopM_inv (step := hrAddStep P T zc u b) (n := T.internal.len) (s := f)
    (fun k s => s.len = f.len ∧ ∀ o i, i < 3 → s.val (3 * o + i) =
      (List.range k).foldl (fun (a : Num) (e : ℕ) => a.add (hrTerm P T zc.val u o i e)) (f.val (3 * o + i)))
    ⟨rfl, by intro o i _; rfl⟩ ?_
  rintro k hk s ⟨hsl, hsv⟩
  have hid := hT.ids k hk
  unfold hrAddStep
  rw [Arr.get_some hk]
  show ∃ s', (T.cellIds.get (2 * T.internal.val k)).bind _ = some s' ∧ _
  rw [Arr.get_some (by rw [hT.cellIds]; omega)]
  show ∃ s', (T.cellIds.get (2 * T.internal.val k + 1)).bind _ = some s' ∧ _
  rw [Arr.get_some (by rw [hT.cellIds]; omega)]
  show ∃ s', (if T.cellIds.val (2 * T.internal.val k + 1) = -1 then _ else _) = some s' ∧ _
  by_cases hr : T.cellIds.val (2 * T.internal.val k + 1) = -1
  · rw [if_pos hr]
    refine ⟨s, rfl, hsl, ?_⟩
    intro o i hi
    rw [List.range_succ, List.foldl_append, ← hsv o i hi]
    show _ = (s.val (3 * o + i)).add (hrTerm P T zc.val u o i k)
    unfold hrTerm
    rw [rightOf_none hr]
    exact (Num.add_zero' _).symm
  · obtain ⟨hl0, hl1⟩ := hT.left _ hid
    obtain ⟨hr0, hr1⟩ := (hT.right _ hid).resolve_left hr
    have hF := hst k hk _ (rightOf_some hr)
    obtain ⟨hs1, hc1⟩ := hn k hk (by rw [rightOf_some hr]; rfl)
    rw [if_neg hr, asIndex_some hl0]
    show ∃ s', (asIndex (T.cellIds.val (2 * T.internal.val k + 1))).bind _ = some s' ∧ _
    rw [asIndex_some hr0]
    show ∃ s', (u.get (3 * T.leftOf (T.internal.val k) + 0)).bind _ = some s' ∧ _
    have hl1' : T.leftOf (T.internal.val k) < nc := hl1
    rw [Arr.get_some (by omega)]
    show ∃ s', (u.get (3 * (T.cellIds.val (2 * T.internal.val k + 1)).toNat + 0)).bind _ = some s' ∧ _
    rw [Arr.get_some (by omega)]
    generalize hre : (T.cellIds.val (2 * T.internal.val k + 1)).toNat = r at *
    show ∃ s', (if (stateAt u r).h < P.tinyH ∧ (stateAt u (T.leftOf (T.internal.val k))).h < P.tinyH then _ else _) = some s' ∧ _
    have hrt : T.rightOf (T.internal.val k) = some r := by rw [rightOf_some hr, hre]
    by_cases hd : (stateAt u r).h < P.tinyH ∧ (stateAt u (T.leftOf (T.internal.val k))).h < P.tinyH
    · rw [if_pos hd]
      refine ⟨s, rfl, hsl, ?_⟩
      intro o i hi
      rw [List.range_succ, List.foldl_append, ← hsv o i hi]
      show _ = (s.val (3 * o + i)).add (hrTerm P T zc.val u o i k)
      unfold hrTerm
      rw [hrt]
      dsimp only
      rw [if_pos hd, Num.add_zero']
    · rw [if_neg hd]
      show ∃ s', (zc.get (T.leftOf (T.internal.val k))).bind _ = some s' ∧ _
      rw [Arr.get_some (by rw [hz]; exact hl1')]
      show ∃ s', (zc.get r).bind _ = some s' ∧ _
      rw [Arr.get_some (by rw [hz]; exact hr1)]
      show ∃ s', hrAddWet P T b k (T.internal.val k) (T.leftOf (T.internal.val k)) r (stateAt u (T.leftOf (T.internal.val k))).h
        (stateAt u r).h (zc.val (T.leftOf (T.internal.val k))) (zc.val r) s = some s' ∧ _
      unfold hrAddWet
      rw [Arr.get_some (by rw [hT.elen]; exact hid)]
      show ∃ s', (T.area.get _).bind _ = some s' ∧ _
      rw [Arr.get_some (by rw [hT.area]; exact hl1')]
      show ∃ s', (T.area.get _).bind _ = some s' ∧ _
      rw [Arr.get_some (by rw [hT.area]; exact hr1)]
      show ∃ s', (b.cn.get _).bind _ = some s' ∧ _
      rw [Arr.get_some (by rw [hb.cn]; exact hk)]
      show ∃ s', (b.sn.get _).bind _ = some s' ∧ _
      rw [Arr.get_some (by rw [hb.sn]; exact hk), hs1, hc1]
      obtain ⟨f1, a1, a2, a3⟩ : ∃ f1, (if (hrPair P zc.val u (T.leftOf (T.internal.val k)) r).1.h > P.tinyH ∨
          (hrPair P zc.val u (T.leftOf (T.internal.val k)) r).2.h > P.tinyH then
          addToCells 3 T b.flux k (T.internal.val k) (T.leftOf (T.internal.val k)) r s else some s) = some f1 ∧ f1.len = s.len ∧
          ∀ o i, i < 3 → f1.val (3 * o + i) = (s.val (3 * o + i)).add
            ((recv (T.owned.val (T.leftOf (T.internal.val k))) (T.l2o.val (T.leftOf (T.internal.val k))) o
              (Num.scale ((hrFlux P (hrPair P zc.val u (T.leftOf (T.internal.val k)) r).1
                (hrPair P zc.val u (T.leftOf (T.internal.val k)) r).2
                (T.sn.val (T.internal.val k)) (T.cn.val (T.internal.val k))).map fun F => F.comp i)
                (-(T.elen.val (T.internal.val k)) / T.area.val (T.leftOf (T.internal.val k))))).add
            (recv (T.owned.val r) (T.l2o.val r) o
              (Num.scale ((hrFlux P (hrPair P zc.val u (T.leftOf (T.internal.val k)) r).1
                (hrPair P zc.val u (T.leftOf (T.internal.val k)) r).2
                (T.sn.val (T.internal.val k)) (T.cn.val (T.internal.val k))).map fun F => F.comp i)
                (T.elen.val (T.internal.val k) / T.area.val r)))) := by
        unfold hrFlux
        by_cases hg : (hrPair P zc.val u (T.leftOf (T.internal.val k)) r).1.h > P.tinyH ∨
          (hrPair P zc.val u (T.leftOf (T.internal.val k)) r).2.h > P.tinyH
        · rw [if_pos hg]
          obtain ⟨f1, e1, e2, e3⟩ := addToCells_spec (nd := 3) (flux := b.flux) (f := s) (id := T.internal.val k) hl1' hr1 hT.owned
            hT.l2o hT.area hT.range (show T.internal.val k < T.elen.len by rw [hT.elen]; exact hid) (by rw [hsl, hf]) hb.flux hk
          refine ⟨f1, e1, e2, ?_⟩
          intro o i hi
          rw [e3 o i hi, hF i hi, Num.add_assoc', if_pos hg, Option.map_map]
          rfl
        · rw [if_neg hg]
          refine ⟨s, rfl, rfl, ?_⟩
          intro o i hi
          rw [if_neg hg, Option.map_some, comp_zero, Num.scale_zero, Num.scale_zero, recv_zero, recv_zero, Num.add_zero', Num.add_zero']
      obtain ⟨f2, b1, b2, b3⟩ := addCorrection_spec (T := T) P (stateAt u (T.leftOf (T.internal.val k))).h
        (hrPair P zc.val u (T.leftOf (T.internal.val k)) r).1.h (T.sn.val (T.internal.val k)) (T.cn.val (T.internal.val k))
        (-(T.elen.val (T.internal.val k)) / T.area.val (T.leftOf (T.internal.val k))) (f := f1) hl1' hT.owned hT.l2o (hT.range _ hl1')
        (by rw [a2, hsl, hf])
      obtain ⟨f3, c1, c2, c3⟩ := addCorrection_spec (T := T) P (stateAt u r).h
        (hrPair P zc.val u (T.leftOf (T.internal.val k)) r).2.h (T.sn.val (T.internal.val k)) (T.cn.val (T.internal.val k))
        (T.elen.val (T.internal.val k) / T.area.val r) (f := f2) hr1 hT.owned hT.l2o (hT.range _ hr1)
        (by rw [b2, a2, hsl, hf])
      refine ⟨f3, ?_, by rw [c2, b2, a2, hsl], ?_⟩
      · dsimp only [Option.bind_some]
        refine Eq.trans (congrArg (fun x => Option.bind x _) a1) ?_
        show (addCorrection T _ _ _ _ _ f1).bind _ = _
        refine Eq.trans (congrArg (fun x => Option.bind x _) b1) ?_
        exact c1
      · intro o i hi
        rw [List.range_succ, List.foldl_append, ← hsv o i hi, c3 o i hi, b3 o i hi, a3 o i hi]
        show _ = (s.val (3 * o + i)).add (hrTerm P T zc.val u o i k)
        unfold hrTerm
        rw [hrt]
        dsimp only
        rw [if_neg hd]
        simp only [Num.add_assoc']

/-- The interior operator with hydrostatic reconstruction: no undefined access, and the result depends on the state only. -/
theorem applyInteriorHRB_spec {P : FlowParams} {T : Tables} {nc n ne : ℕ} (hT : T.Valid nc n ne) {zc u : Arr ℝ} (hz : zc.len = nc)
    (hu : u.len = 3 * nc) {b : Batch} (hb : b.Sized T.internal.len) (hn : b.HasNormals T) {f : Arr Num} (hf : f.len = 3 * n) :
    ∃ b' f', applyInteriorHRB P T zc b u f = some (b', f') ∧ b'.Sized T.internal.len ∧ b'.HasNormals T ∧ f'.len = f.len ∧
      ∀ o i, i < 3 → f'.val (3 * o + i) = (List.range T.internal.len).foldl
        (fun (a : Num) (e : ℕ) => a.add (hrTerm P T zc.val u o i e)) (f.val (3 * o + i)) := by
  obtain ⟨b1, g1, g2, g3, g4, g5, g6⟩ := hrGather_spec (P := P) hT hz hu hb
  unfold applyInteriorHRB
  rw [g1]
  obtain ⟨F, r1, r2, r3⟩ := roeB_spec (g := P.g) g2.left g2.right g2.sn g2.cn g2.flux
  show ∃ b' f', (roeB P.g _ _ b1.sn b1.cn b1.flux).bind _ = _ ∧ _
  rw [r1]
  have hsz : (⟨b1.left, b1.right, b1.sn, b1.cn, F⟩ : Batch).Sized T.internal.len :=
    ⟨g2.left, g2.right, g2.sn, g2.cn, r2.trans g2.flux⟩
  have hnn : (⟨b1.left, b1.right, b1.sn, b1.cn, F⟩ : Batch).HasNormals T := by
    intro e he hs
    show b1.sn.val e = _ ∧ b1.cn.val e = _
    rw [g3, g4]
    exact hn e he hs
  obtain ⟨f', a1, a2, a3⟩ := hrAdd_spec (P := P) hT hz hu hsz hnn (by
    intro e he r hr i hi
    obtain ⟨hx, hy⟩ := g6 e he r hr
    obtain ⟨hs, hc⟩ := hnn e he (by rw [hr]; rfl)
    show F.val (3 * e + i) = _
    rw [r3 e he i hi, hx, hy, show b1.sn.val e = _ from hs, show b1.cn.val e = _ from hc]
    rfl) hf
  show ∃ b' f', (loopM _ T.internal.len f).map _ = _ ∧ _
  rw [a1]
  exact ⟨_, f', rfl, hsz, hnn, a2, a3⟩

/-! ### The source operators -/

/-- the bed-slope term of cell `c` -/
noncomputable def bedOf (P : FlowParams) (slope : Bool) (V : BedTables) (u : Arr ℝ) (c : ℕ) : ℝ × ℝ :=
  bedTerm P slope (V.dzdx.val c) (V.dzdy.val c) (stateAt u c).h

/-- the friction term of cell `c`, where `fd` are the divergences by owned number and component -/
noncomputable def frictionOf (P : FlowParams) (m : FrictionMethod) (slope : Bool) (T : Tables) (V : BedTables) (dt : ℝ) (mat : Arr ℝ)
    (fd : ℕ → ℕ → Num) (u : Arr ℝ) (c : ℕ) : Option (ℝ × ℝ) :=
  frictionB P m dt (mat.val (T.l2o.val c)) (stateAt u c) (fd (T.l2o.val c) 1) (fd (T.l2o.val c) 2) (bedOf P slope V u c).1
    (bedOf P slope V u c).2

/-- what the source operator adds to component `i` of cell `c` -/
noncomputable def sourceEntry (P : FlowParams) (m : FrictionMethod) (slope : Bool) (T : Tables) (V : BedTables) (dt : ℝ)
    (src mat : Arr ℝ) (fd : ℕ → ℕ → Num) (u : Arr ℝ) (i c : ℕ) : Num :=
  if i = 0 then some (src.val (3 * T.l2o.val c))
  else if i = 1 then (frictionOf P m slope T V dt mat fd u c).map fun t =>
    -(bedOf P slope V u c).1 - t.1 + src.val (3 * T.l2o.val c + 1)
  else (frictionOf P m slope T V dt mat fd u c).map fun t => -(bedOf P slope V u c).2 - t.2 + src.val (3 * T.l2o.val c + 2)

/-- what cell `c` adds to entry `(o, i)` -/
noncomputable def srcTerm (P : FlowParams) (m : FrictionMethod) (slope : Bool) (T : Tables) (V : BedTables) (dt : ℝ)
    (src mat : Arr ℝ) (fd : ℕ → ℕ → Num) (u : Arr ℝ) (o i c : ℕ) : Num :=
  recv (T.owned.val c) (T.l2o.val c) o (sourceEntry P m slope T V dt src mat fd u i c)

/-- component `i` of primitive variables -/
def Prim.comp (w : Prim) (i : ℕ) : ℝ := if i = 0 then w.h else if i = 1 then w.u else w.v

theorem addSourceB_spec {n : ℕ} {src : Arr ℝ} (hs : src.len = 3 * n) {o' : ℕ} (ho : o' < n) (b : ℝ × ℝ) (t : Option (ℝ × ℝ)) {f : Arr Num}
    (hf : f.len = 3 * n) : ∃ f', addSourceB src o' b t f = some f' ∧ f'.len = f.len ∧ ∀ o i, i < 3 →
      f'.val (3 * o + i) = (f.val (3 * o + i)).add (recv true o' o (if i = 0 then some (src.val (3 * o'))
        else if i = 1 then t.map fun t => -b.1 - t.1 + src.val (3 * o' + 1) else t.map fun t => -b.2 - t.2 + src.val (3 * o' + 2))) := by
  unfold addSourceB
  rw [Arr.get_some (by omega), Arr.get_some (by omega), Arr.get_some (by omega)]
  show ∃ f', (incr f (3 * o' + 0) _).bind _ = some f' ∧ _
  rw [incr_some _ (by omega)]
  show ∃ f', (incr _ (3 * o' + 1) _).bind _ = some f' ∧ _
  rw [incr_some _ (by show 3 * o' + 1 < f.len; omega)]
  refine ⟨_, incr_some _ (by show 3 * o' + 2 < f.len; omega), rfl, ?_⟩
  intro o i hi
  dsimp only
  unfold recv
  by_cases h : o = o'
  · subst h
    rw [if_pos ⟨rfl, rfl⟩]
    interval_cases i
    · rw [Function.update_of_ne (by omega), Function.update_of_ne (by omega), Function.update_self]
      rfl
    · rw [Function.update_of_ne (by omega), Function.update_self, Function.update_of_ne (by omega)]
      rfl
    · rw [Function.update_self, Function.update_of_ne (by omega), Function.update_of_ne (by omega)]
      rfl
  · rw [Function.update_of_ne (by omega), Function.update_of_ne (by omega), Function.update_of_ne (by omega),
      if_neg (fun q => h q.2.symm), Num.add_zero']

theorem putPrim_spec {n : ℕ} (P : FlowParams) {pv : Arr ℝ} (hp : pv.len = 3 * n) {o' : ℕ} (ho : o' < n) (q : Cons) :
    ∃ pv', putPrim P pv o' q = some pv' ∧ pv'.len = pv.len ∧ ∀ o i, i < 3 →
      pv'.val (3 * o + i) = if o = o' then (velocities P.tinyH P.hAnuga q).comp i else pv.val (3 * o + i) := by
  unfold putPrim
  rw [Arr.put_some _ (by omega)]
  show ∃ pv', (Arr.put _ (3 * o' + 1) _).bind _ = some pv' ∧ _
  rw [Arr.put_some _ (by show 3 * o' + 1 < pv.len; omega)]
  refine ⟨_, Arr.put_some _ (by show 3 * o' + 2 < pv.len; omega), rfl, ?_⟩
  intro o i hi
  dsimp only
  by_cases h : o = o'
  · subst h
    rw [if_pos rfl]
    have hv : ∀ (x : ℝ), (if q.h ≥ P.tinyH then x else 0) = if q.h < P.tinyH then 0 else x := by
      intro x
      by_cases hh : q.h < P.tinyH
      · rw [if_pos hh, if_neg (by linarith)]
      · rw [if_neg hh, if_pos (by linarith)]
    rw [hv, hv]
    unfold velocities Prim.comp
    interval_cases i
    · rw [Function.update_of_ne (by omega), Function.update_of_ne (by omega), Function.update_self]
      by_cases hh : q.h < P.tinyH <;> simp [hh]
    · rw [Function.update_of_ne (by omega), Function.update_self]
      by_cases hh : q.h < P.tinyH <;> simp [hh]
    · rw [Function.update_self]
      by_cases hh : q.h < P.tinyH <;> simp [hh]
  · rw [Function.update_of_ne (by omega), Function.update_of_ne (by omega), Function.update_of_ne (by omega), if_neg h]

theorem bedTermB_some {P : FlowParams} {V : BedTables} {nc : ℕ} (hV : V.Valid nc) (slope : Bool) {c : ℕ} (hc : c < nc) (h : ℝ) :
    bedTermB P slope V c h = some (bedTerm P slope (V.dzdx.val c) (V.dzdy.val c) h) := by
  unfold bedTermB bedTerm
  cases slope with
  | false => rfl
  | true =>
    rw [if_pos rfl, if_pos rfl, Arr.get_some (by rw [hV.dzdx]; exact hc)]
    show (V.dzdy.get c).map _ = _
    rw [Arr.get_some (by rw [hV.dzdy]; exact hc)]
    rfl

/-- The source operator: no undefined access, what it adds, and the primitive variables that it leaves. -/
theorem applySourceB_spec {P : FlowParams} (m : FrictionMethod) (slope : Bool) {T : Tables} {V : BedTables} {nc n ne : ℕ}
    (hT : T.Valid nc n ne) (hV : V.Valid nc) (dt : ℝ) {src mat u : Arr ℝ} {fd : Arr Num} (hs : src.len = 3 * n) (hm : mat.len = n)
    (hfd : fd.len = 3 * n) (hu : u.len = 3 * nc) {s : SrcOut} (hf : s.f.len = 3 * n) (hp : s.pv.len = 3 * n) :
    ∃ s', applySourceB P m slope T V nc dt src mat fd u s = some s' ∧ s'.f.len = 3 * n ∧ s'.pv.len = 3 * n ∧
      (∀ o i, i < 3 → s'.f.val (3 * o + i) = (List.range nc).foldl
        (fun (a : Num) (c : ℕ) => a.add (srcTerm P m slope T V dt src mat (fun o i => fd.val (3 * o + i)) u o i c)) (s.f.val (3 * o + i))) ∧
      ((∀ c < nc, ∀ c' < nc, T.owned.val c = true → T.owned.val c' = true → T.l2o.val c = T.l2o.val c' → c = c') →
        ∀ c < nc, T.owned.val c = true → ∀ i < 3,
          s'.pv.val (3 * T.l2o.val c + i) = (velocities P.tinyH P.hAnuga (stateAt u c)).comp i) := by
  unfold applySourceB
  refine loopM_inv (step := sourceStepB P m slope T V dt src mat fd u) (n := nc) (s := s)
    (fun k s' => s'.f.len = 3 * n ∧ s'.pv.len = 3 * n ∧
      (∀ o i, i < 3 → s'.f.val (3 * o + i) = (List.range k).foldl
        (fun (a : Num) (c : ℕ) => a.add (srcTerm P m slope T V dt src mat (fun o i => fd.val (3 * o + i)) u o i c)) (s.f.val (3 * o + i))) ∧
      ((∀ c < nc, ∀ c' < nc, T.owned.val c = true → T.owned.val c' = true → T.l2o.val c = T.l2o.val c' → c = c') →
        ∀ c < k, T.owned.val c = true → ∀ i < 3,
          s'.pv.val (3 * T.l2o.val c + i) = (velocities P.tinyH P.hAnuga (stateAt u c)).comp i))
    ⟨hf, hp, fun o i _ => rfl, fun _ c hc => by omega⟩ ?_
  rintro k hk s1 ⟨i1, i2, i3, i4⟩
  unfold sourceStepB
  rw [Arr.get_some (by rw [hT.owned]; exact hk)]
  show ∃ s', (if T.owned.val k = true then _ else _) = some s' ∧ _
  by_cases hw : T.owned.val k = true
  · have ho := hT.range k hk hw
    rw [if_pos hw, Arr.get_some (by rw [hT.l2o]; exact hk)]
    show ∃ s', (u.get (3 * k + 0)).bind _ = some s' ∧ _
    rw [Arr.get_some (by omega)]
    show ∃ s', (u.get (3 * k + 1)).bind _ = some s' ∧ _
    rw [Arr.get_some (by omega)]
    show ∃ s', (u.get (3 * k + 2)).bind _ = some s' ∧ _
    rw [Arr.get_some (by omega)]
    show ∃ s', (bedTermB P slope V k (stateAt u k).h).bind _ = some s' ∧ _
    rw [bedTermB_some hV slope hk]
    show ∃ s', (fd.get (3 * T.l2o.val k + 1)).bind _ = some s' ∧ _
    rw [Arr.get_some (by omega)]
    show ∃ s', (fd.get (3 * T.l2o.val k + 2)).bind _ = some s' ∧ _
    rw [Arr.get_some (by omega)]
    show ∃ s', (mat.get (1 * T.l2o.val k + 0)).bind _ = some s' ∧ _
    rw [Arr.get_some (by omega), show 1 * T.l2o.val k + 0 = T.l2o.val k by omega]
    obtain ⟨f', a1, a2, a3⟩ := addSourceB_spec hs ho (bedOf P slope V u k)
      (frictionOf P m slope T V dt mat (fun o i => fd.val (3 * o + i)) u k) (f := s1.f) i1
    obtain ⟨pv', b1, b2, b3⟩ := putPrim_spec P (pv := s1.pv) i2 ho (stateAt u k)
    refine ⟨⟨f', pv'⟩, ?_, a2.trans i1, b2.trans i2, ?_, ?_⟩
    · dsimp only [Option.bind_some]
      refine Eq.trans (congrArg (fun x => Option.bind x _) a1) ?_
      dsimp only [Option.bind_some]
      refine Eq.trans (congrArg (fun x => Option.map _ x) b1) ?_
      rfl
    · intro o i hi
      rw [List.range_succ, List.foldl_append, ← i3 o i hi, a3 o i hi]
      show _ = (s1.f.val (3 * o + i)).add (srcTerm P m slope T V dt src mat (fun o i => fd.val (3 * o + i)) u o i k)
      unfold srcTerm sourceEntry
      rw [hw]
    · intro hinj c hc hwc i hi
      show pv'.val _ = _
      rw [b3 _ i hi]
      by_cases h : c = k
      · subst h; rw [if_pos rfl]
      · rw [if_neg (fun q => h (hinj c (by omega) k hk hwc hw q))]
        exact i4 hinj c (by omega) hwc i hi
  · rw [if_neg hw]
    refine ⟨s1, rfl, i1, i2, ?_, ?_⟩
    · intro o i hi
      rw [List.range_succ, List.foldl_append, ← i3 o i hi]
      show _ = (s1.f.val (3 * o + i)).add (srcTerm P m slope T V dt src mat (fun o i => fd.val (3 * o + i)) u o i k)
      unfold srcTerm recv
      rw [if_neg (fun q => hw q.1), Num.add_zero']
    · intro hinj c hc hwc i hi
      by_cases h : c = k
      · subst h; exact absurd hwc hw
      · exact i4 hinj c (by omega) hwc i hi

/-! ### Whole evaluations -/

/-- The memory of all operators is ready: that of the fluxes, and the bed elevations. -/
def PetscMem.Ready (M : PetscMem) (C : PetscCfg) (T : Tables) (V : BedTables) (Bs : List Bnd) (nc : ℕ) : Prop :=
  M.flux.Ready T Bs ∧
    ((C.wb ≠ .hr ∧ M.zc = none) ∨ (C.wb = .hr ∧ ∃ zc, M.zc = some zc ∧ zc.len = nc ∧ ∀ c < nc, zc.val c = V.zcOf c))

/-- The vectors of data fit `n` owned cells. -/
structure PetscVecs.Fits (D : PetscVecs) (n : ℕ) : Prop where
  src : D.src.len = 3 * n
  mat : D.mat.len = n
  pv : D.pv.len = 3 * n

/-- what internal edge `e` adds to entry `(o, i)` -/
noncomputable def intTerm (P : FlowParams) (C : PetscCfg) (T : Tables) (V : BedTables) (u : Arr ℝ) (o i e : ℕ) : Num :=
  if C.wb = .hr then hrTerm P T V.zcOf u o i e else edgeTerm P T u o i e

/-- entry `(o, i)` of the flux divergence -/
noncomputable def divEntry (P : FlowParams) (C : PetscCfg) (T : Tables) (V : BedTables) (Bs : List Bnd) (u : Arr ℝ) (o i : ℕ) : Num :=
  bSum P T Bs u o i ((List.range T.internal.len).foldl (fun (a : Num) (e : ℕ) => a.add (intTerm P C T V u o i e)) (some 0))

/-- entry `(o, i)` of the right-hand side -/
noncomputable def rhsEntry (P : FlowParams) (C : PetscCfg) (T : Tables) (V : BedTables) (Bs : List Bnd) (nc : ℕ) (dt : ℝ)
    (src mat u : Arr ℝ) (o i : ℕ) : Num :=
  (List.range nc).foldl (fun (a : Num) (c : ℕ) => a.add
    (srcTerm P C.method (decide (C.wb ≠ .hr)) T V dt src mat (fun o i => divEntry P C T V Bs u o i) u o i c)) (divEntry P C T V Bs u o i)

theorem hrTerm_congr {P : FlowParams} {T : Tables} {nc n ne : ℕ} (hT : T.Valid nc n ne) {z z' : ℕ → ℝ} (h : ∀ c < nc, z c = z' c)
    (u : Arr ℝ) (o i : ℕ) {e : ℕ} (he : e < T.internal.len) : hrTerm P T z u o i e = hrTerm P T z' u o i e := by
  unfold hrTerm
  have hid := hT.ids e he
  have hl : T.leftOf (T.internal.val e) < nc := (hT.left _ hid).2
  cases hr : T.rightOf (T.internal.val e) with
  | none => rfl
  | some r =>
    dsimp only
    have hr' : r < nc := by
      unfold Tables.rightOf at hr
      split at hr
      · cases hr
      · rename_i hne
        cases hr
        exact ((hT.right _ hid).resolve_left hne).2
    unfold hrPair
    rw [h _ hl, h _ hr']

theorem foldl_add_congr {α : Type} {t t' : α → Num} : ∀ (l : List α) (a : Num), (∀ x ∈ l, t x = t' x) →
    l.foldl (fun (a : Num) (x : α) => a.add (t x)) a = l.foldl (fun (a : Num) (x : α) => a.add (t' x)) a := by
  intro l
  induction l with
  | nil => intro a _; rfl
  | cons x l ih =>
    intro a h
    rw [List.foldl_cons, List.foldl_cons, h x (by simp)]
    exact ih _ fun y hy => h y (by simp [hy])

theorem applyInteriorOf_spec {P : FlowParams} {C : PetscCfg} {T : Tables} {V : BedTables} {Bs : List Bnd} {nc n ne : ℕ} (hT : T.Valid nc n ne)
    {u : Arr ℝ} (hu : u.len = 3 * nc) {M : PetscMem} (hM : M.Ready C T V Bs nc) {f : Arr Num} (hf : f.len = 3 * n) :
    ∃ b' f', applyInteriorOf P T M u f = some (b', f') ∧ b'.Sized T.internal.len ∧ b'.HasNormals T ∧ f'.len = f.len ∧
      ∀ o i, i < 3 → f'.val (3 * o + i) = (List.range T.internal.len).foldl
        (fun (a : Num) (e : ℕ) => a.add (intTerm P C T V u o i e)) (f.val (3 * o + i)) := by
  obtain ⟨hF, hz⟩ := hM
  unfold applyInteriorOf
  rcases hz with ⟨hw, hz⟩ | ⟨hw, zc, hz, hl, hv⟩
  · rw [hz]
    obtain ⟨b', f', a1, a2, a3, a4, a5⟩ := applyInteriorB_spec (P := P) hT hu hF.sized hF.normals hf
    refine ⟨b', f', a1, a2, a3, a4, fun o i hi => (a5 o i hi).trans ?_⟩
    refine foldl_add_congr _ _ fun e _ => ?_
    unfold intTerm
    rw [if_neg hw]
  · rw [hz]
    obtain ⟨b', f', a1, a2, a3, a4, a5⟩ := applyInteriorHRB_spec (P := P) hT hl hu hF.sized hF.normals hf
    refine ⟨b', f', a1, a2, a3, a4, fun o i hi => (a5 o i hi).trans ?_⟩
    refine foldl_add_congr _ _ fun e he => ?_
    unfold intTerm
    rw [if_pos hw]
    exact hrTerm_congr hT hv u o i (List.mem_range.mp he)

theorem applyPetsc_spec {P : FlowParams} {C : PetscCfg} {T : Tables} {V : BedTables} {Bs : List Bnd} {nc n ne : ℕ} (hT : T.Valid nc n ne)
    (hV : V.Valid nc) (hB : ∀ B ∈ Bs, B.Valid ne) (dt : ℝ) {u : Arr ℝ} (hu : u.len = 3 * nc) {M : PetscMem} (hM : M.Ready C T V Bs nc)
    {D : PetscVecs} (hD : D.Fits n) :
    ∃ M' D' f, applyPetsc P C T V Bs nc n dt M D u = some (M', D', f) ∧ M'.Ready C T V Bs nc ∧ D'.Fits n ∧ f.len = 3 * n ∧
      (∀ o i, i < 3 → f.val (3 * o + i) = rhsEntry P C T V Bs nc dt D.src D.mat u o i) ∧ D'.srcInst = D.src ∧
      ((∀ c < nc, ∀ c' < nc, T.owned.val c = true → T.owned.val c' = true → T.l2o.val c = T.l2o.val c' → c = c') →
        ∀ c < nc, T.owned.val c = true → ∀ i < 3,
          D'.pv.val (3 * T.l2o.val c + i) = (velocities P.tinyH P.hAnuga (stateAt u c)).comp i) := by
  obtain ⟨b', f1, a1, a2, a3, a4, a5⟩ := applyInteriorOf_spec (P := P) hT hu hM (f := Arr.calloc (3 * n) (some 0)) rfl
  obtain ⟨ss', f2, b1, b2, b3, b4, b5⟩ := applyBoundariesB_spec (P := P) (dt := dt) hT hu hB hM.1.bnds (f := f1) a4
  have hf2 : f2.len = 3 * n := b3.trans a4
  have hdiv : ∀ o i, i < 3 → f2.val (3 * o + i) = divEntry P C T V Bs u o i := by
    intro o i hi
    rw [b4 o i hi, a5 o i hi]
    rfl
  obtain ⟨s', c1, c2, c3, c4, c5⟩ := applySourceB_spec (P := P) C.method (decide (C.wb ≠ .hr)) hT hV dt hD.src hD.mat hf2 hu
    (s := ⟨f2, D.pv⟩) hf2 hD.pv
  refine ⟨⟨⟨b', ss'⟩, M.zc⟩, { D with pv := s'.pv, srcInst := D.src }, s'.f, ?_, ⟨⟨a2, a3, b2⟩, hM.2⟩, ⟨hD.src, hD.mat, c3⟩, c2, ?_, rfl, c5⟩
  · unfold applyPetsc
    rw [a1]
    show (applyBoundariesB P T dt u Bs M.flux.bnds f1).bind _ = _
    rw [b1]
    show (applySourceB P C.method (decide (C.wb ≠ .hr)) T V nc dt D.src D.mat f2 u ⟨f2, D.pv⟩).map _ = _
    rw [c1]
    rfl
  · intro o i hi
    rw [c4 o i hi]
    unfold rhsEntry
    show List.foldl _ (f2.val (3 * o + i)) _ = _
    rw [hdiv o i hi]
    refine foldl_add_congr _ _ fun c _ => ?_
    unfold srcTerm sourceEntry frictionOf
    dsimp only
    rw [hdiv _ 1 (by omega), hdiv _ 2 (by omega)]

/-! ### The model that treats one edge or cell after the other -/

/-- The mesh of `Operator.lean` that the tables describe, with slopes and bed elevations. -/
noncomputable def rhsMeshOf (T : Tables) (V : BedTables) (Bs : List Bnd) (nc : ℕ) : PMesh :=
  { meshOf T Bs nc with dzdx := V.dzdx.val, dzdy := V.dzdy.val, zc := V.zcOf }

/-- The entries of a vector of sources by owned number. -/
def srcAt (a : Arr ℝ) (o : ℕ) : Flux := ⟨a.val (3 * o), a.val (3 * o + 1), a.val (3 * o + 2)⟩

theorem applyInteriorHR_entry (P : FlowParams) (T : Tables) (V : BedTables) (Bs : List Bnd) (nc : ℕ) (u : Arr ℝ) (o i : ℕ) :
    ∀ (l : List ℕ) (f g : ℕ → Flux),
      (l.map fun e => (⟨T.leftOf (T.internal.val e), T.rightOf (T.internal.val e), T.elen.val (T.internal.val e),
        T.sn.val (T.internal.val e), T.cn.val (T.internal.val e)⟩ : IEdge)).foldlM
          (hrEdge P (rhsMeshOf T V Bs nc) (stateAt u)) f = some g →
      l.foldl (fun (a : Num) (e : ℕ) => a.add (hrTerm P T V.zcOf u o i e)) (some ((f o).comp i)) = some ((g o).comp i) := by
  intro l
  induction l with
  | nil => intro f g h; cases h; rfl
  | cons e l ih =>
    intro f g h
    obtain ⟨f', h1, h2⟩ := foldlM_cons_some h
    rw [List.foldl_cons, ← ih f' g h2]
    congr 1
    unfold hrEdge at h1
    dsimp only at h1
    unfold hrTerm
    cases hr : T.rightOf (T.internal.val e) with
    | none =>
      rw [hr] at h1
      cases h1
      exact Num.add_zero' _
    | some r =>
      rw [hr] at h1
      dsimp only at h1 ⊢
      by_cases hd : (stateAt u r).h < P.tinyH ∧ (stateAt u (T.leftOf (T.internal.val e))).h < P.tinyH
      · rw [if_pos hd] at h1 ⊢
        cases h1
        exact Num.add_zero' _
      · rw [if_neg hd] at h1 ⊢
        obtain ⟨F, hF, hf'⟩ := Option.map_eq_some_iff.mp h1
        replace hF : hrFlux P (hrPair P V.zcOf u (T.leftOf (T.internal.val e)) r).1 (hrPair P V.zcOf u (T.leftOf (T.internal.val e)) r).2
          (T.sn.val (T.internal.val e)) (T.cn.val (T.internal.val e)) = some F := hF
        rw [hF, ← hf']
        unfold addBoth
        rw [addOwned_comp, addOwned_comp, addOwned_comp, addOwned_comp]
        simp only [Num.add_assoc']
        rfl

theorem frictionB_some (P : FlowParams) (m : FrictionMethod) (dt n : ℝ) (q : Cons) (Fx Fy bx bY : ℝ) :
    frictionB P m dt n q (some Fx) (some Fy) bx bY = friction P m dt n q Fx Fy bx bY := by
  unfold frictionB
  by_cases h : q.h ≥ P.tinyH
  · rw [if_pos h]; rfl
  · rw [if_neg h]
    unfold friction frictionSemiImplicit frictionXQ2018
    cases m <;> dsimp only <;> rw [if_neg h]

theorem applySource_entry (P : FlowParams) (m : FrictionMethod) (slope : Bool) (T : Tables) (V : BedTables) (Bs : List Bnd) (nc : ℕ) (dt : ℝ)
    (src mat u : Arr ℝ) (fd : ℕ → Flux) (fd' : ℕ → ℕ → Num) (hfd : ∀ o i, fd' o i = some ((fd o).comp i)) (o i : ℕ) (hi : i < 3) :
    ∀ (l : List ℕ) (f g : ℕ → Flux),
      l.foldlM (sourceCell P m slope (rhsMeshOf T V Bs nc) dt (srcAt src) mat.val fd (stateAt u)) f = some g →
      l.foldl (fun (a : Num) (c : ℕ) => a.add (srcTerm P m slope T V dt src mat fd' u o i c)) (some ((f o).comp i)) =
        some ((g o).comp i) := by
  intro l
  induction l with
  | nil => intro f g h; cases h; rfl
  | cons c l ih =>
    intro f g h
    obtain ⟨f', h1, h2⟩ := foldlM_cons_some h
    rw [List.foldl_cons, ← ih f' g h2]
    congr 1
    unfold sourceCell at h1
    unfold srcTerm recv
    by_cases hw : T.owned.val c = true
    · rw [if_pos (show (rhsMeshOf T V Bs nc).owned c = true from hw)] at h1
      obtain ⟨t, ht, hf'⟩ := Option.map_eq_some_iff.mp h1
      have hfr : frictionOf P m slope T V dt mat fd' u c = some t := by
        unfold frictionOf
        rw [hfd, hfd, frictionB_some]
        exact ht
      rw [← hf']
      unfold addAt
      by_cases h : o = T.l2o.val c
      · rw [if_pos (show o = (rhsMeshOf T V Bs nc).l2o c from h), if_pos ⟨hw, h.symm⟩, comp_add]
        unfold sourceEntry
        rw [hfr]
        interval_cases i <;> rfl
      · rw [if_neg (show ¬ o = (rhsMeshOf T V Bs nc).l2o c from h), if_neg (fun q => h q.2.symm), Num.add_zero']
    · rw [if_neg (show ¬ (rhsMeshOf T V Bs nc).owned c = true from hw)] at h1
      cases h1
      rw [if_neg (fun q => hw q.1), Num.add_zero']

theorem rhsEntry_eq {P : FlowParams} {C : PetscCfg} {T : Tables} {V : BedTables} {Bs : List Bnd} {nc : ℕ} {dt : ℝ} {src mat u : Arr ℝ}
    {g : ℕ → Flux}
    (h : rhs P C.method (decide (C.wb = .hr)) (rhsMeshOf T V Bs nc) dt (srcAt src) mat.val (stateAt u) = some g) (o i : ℕ) (hi : i < 3) :
    rhsEntry P C T V Bs nc dt src mat u o i = some ((g o).comp i) := by
  unfold rhs at h
  obtain ⟨f1, h1, h'⟩ := Option.bind_eq_some_iff.mp h
  obtain ⟨fd, h2, h3⟩ := Option.bind_eq_some_iff.mp h'
  have hint : ∀ o i, (List.range T.internal.len).foldl (fun (a : Num) (e : ℕ) => a.add (intTerm P C T V u o i e)) (some 0) =
      some ((f1 o).comp i) := by
    intro o i
    by_cases hw : C.wb = .hr
    · rw [if_pos (by rw [hw]; rfl)] at h1
      rw [← applyInteriorHR_entry P T V Bs nc u o i _ _ f1 h1, show (Flux.zero.comp i : ℝ) = 0 from comp_zero i]
      refine foldl_add_congr _ _ fun e _ => ?_
      unfold intTerm
      rw [if_pos hw]
    · rw [if_neg (by simp [hw])] at h1
      rw [← applyInterior_entry P T Bs nc u o i _ _ f1 h1, show (Flux.zero.comp i : ℝ) = 0 from comp_zero i]
      refine foldl_add_congr _ _ fun e _ => ?_
      unfold intTerm
      rw [if_neg hw]
  have hdiv : ∀ o i, divEntry P C T V Bs u o i = some ((fd o).comp i) := by
    intro o i
    unfold divEntry
    rw [hint o i]
    exact applyBoundary_entry P T Bs nc u o i Bs f1 fd h2
  unfold rhsEntry
  rw [hdiv o i]
  have hs : (!decide (C.wb = .hr)) = decide (C.wb ≠ .hr) := by simp
  rw [hs] at h3
  exact applySource_entry P C.method (decide (C.wb ≠ .hr)) T V Bs nc dt src mat u fd _ (fun o i => hdiv o i) o i hi _ fd g h3

end RDy
