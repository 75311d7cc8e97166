import Verif.Model.PetscTRhs
import Verif.Lemmas.PetscRhs
import Mathlib.Tactic

/-! Lemmas about the right-hand side of the PETSc backend with sediment as assembled (`Model/PetscTRhs.lean`). -/

namespace RDy

/-! ### The interior operator with hydrostatic reconstruction -/

theorem tPutHR_spec {P : FlowParams} {nt n e nc c : ℕ} {a : TSide} (ha : a.Sized n nt) {u : Arr ℝ} (hu : u.len = (3 + nt) * nc) (z zmax : ℝ)
    (he : e < n) (hc : c < nc) :
    ∃ a', tPutHR P nt a e u c z zmax = some a' ∧ a'.Sized n nt ∧ a'.HoldsPrim nt e (hrTState P z zmax (tStateAt nt u c)) ∧
      ∀ e' ≠ e, ∀ q, a.HoldsPrim nt e' q → a'.HoldsPrim nt e' q := by
  have hin : ∀ j < 3 + nt, (3 + nt) * c + j < u.len := fun j hj => by rw [hu]; exact flat_lt hc hj
  obtain ⟨h', r1, r2, _⟩ := row_put' (nd := nt) (fun j => max 0 ((tStateAt nt u c).q.h + z - zmax) *
    (if (tStateAt nt u c).q.h > P.tinyH then (tStateAt nt u c).hc j / (tStateAt nt u c).q.h else 0)) (f := a.hci) (e := e) he ha.hci
  obtain ⟨c', s1, s2, s3⟩ := row_put' (nd := nt) (fun j =>
    (if (tStateAt nt u c).q.h > P.tinyH then (tStateAt nt u c).hc j / (tStateAt nt u c).q.h else 0)) (f := a.ci) (e := e) he ha.ci
  unfold tPutHR
  rw [Arr.get_some (hin 0 (by omega)), Arr.get_some (hin 1 (by omega)), Arr.get_some (hin 2 (by omega))]
  show ∃ a', (a.st.get e).bind _ = some a' ∧ _
  rw [Arr.get_some (by rw [ha.st]; exact he)]
  show ∃ a', (a.st.put e _).bind _ = some a' ∧ _
  rw [Arr.put_some _ (by rw [ha.st]; exact he)]
  dsimp only [Option.bind_some]
  rw [loopM_congr (step' := fun (x : Arr ℝ) (j : ℕ) => x.put (e * nt + j) (max 0 ((tStateAt nt u c).q.h + z - zmax) *
      (if (tStateAt nt u c).q.h > P.tinyH then (tStateAt nt u c).hc j / (tStateAt nt u c).q.h else 0)))
      (fun k hk s => by rw [Arr.get_some (by have := hin (3 + k) (by omega); omega)]; rfl) a.hci, r1]
  dsimp only [Option.bind_some]
  rw [loopM_congr (step' := fun (x : Arr ℝ) (j : ℕ) => x.put (e * nt + j)
      (if (tStateAt nt u c).q.h > P.tinyH then (tStateAt nt u c).hc j / (tStateAt nt u c).q.h else 0))
      (fun k hk s => by rw [Arr.get_some (by have := hin (3 + k) (by omega); omega)]; rfl) a.ci, s1]
  refine ⟨_, rfl, ⟨ha.st, r2.trans ha.hci, s2.trans ha.ci⟩, ⟨?_, ?_⟩, ?_⟩
  · dsimp only
    rw [Function.update_self]
    rfl
  · intro j hj
    dsimp only
    rw [s3 e j hj, if_pos rfl]
    rfl
  · intro e' hne q hq
    refine ⟨?_, ?_⟩
    · dsimp only
      rw [Function.update_of_ne hne]
      exact hq.1
    · intro j hj
      dsimp only
      rw [s3 e' j hj, if_neg hne]
      exact hq.2 j hj

/-- the reconstructed states of both sides of an edge between cells `l` and `r` -/
noncomputable def hrTPair (P : FlowParams) (nt : ℕ) (z : ℕ → ℝ) (u : Arr ℝ) (l r : ℕ) : TPrim × TPrim :=
  (hrTState P (z l) (max (z l) (z r)) (tStateAt nt u l), hrTState P (z r) (max (z l) (z r)) (tStateAt nt u r))

theorem hrTGather_spec {P : FlowParams} {T : Tables} {nc n ne nt : ℕ} (hT : T.Valid nc n ne) {zc u : Arr ℝ} (hz : zc.len = nc)
    (hu : u.len = (3 + nt) * nc) {b : TBatch} (hb : b.Sized T.internal.len nt) :
    ∃ b', loopM (hrTGatherStep P nt T zc u) T.internal.len b = some b' ∧ b'.Sized T.internal.len nt ∧ b'.sn = b.sn ∧ b'.cn = b.cn ∧
      ∀ e < T.internal.len, ∀ r, T.rightOf (T.internal.val e) = some r →
        b'.left.HoldsPrim nt e (hrTPair P nt zc.val u (T.leftOf (T.internal.val e)) r).1 ∧
        b'.right.HoldsPrim nt e (hrTPair P nt zc.val u (T.leftOf (T.internal.val e)) r).2 := by
  obtain ⟨b', h1, h2, h3⟩ := loopM_inv (step := hrTGatherStep P nt T zc u) (n := T.internal.len) (s := b)
    (fun k b' => (b'.Sized T.internal.len nt ∧ b'.sn = b.sn ∧ b'.cn = b.cn) ∧
      ∀ e < k, ∀ r, T.rightOf (T.internal.val e) = some r →
        b'.left.HoldsPrim nt e (hrTPair P nt zc.val u (T.leftOf (T.internal.val e)) r).1 ∧
        b'.right.HoldsPrim nt e (hrTPair P nt zc.val u (T.leftOf (T.internal.val e)) r).2)
    ⟨⟨hb, rfl, rfl⟩, by intro e he; omega⟩ (by
      rintro k hk s ⟨⟨hs, hs1, hs2⟩, hv⟩
      have hid := hT.ids k hk
      unfold hrTGatherStep
      rw [Arr.get_some hk]
      show ∃ s', (T.cellIds.get (2 * T.internal.val k)).bind _ = some s' ∧ _
      rw [Arr.get_some (by rw [hT.cellIds]; omega)]
      show ∃ s', (T.cellIds.get (2 * T.internal.val k + 1)).bind _ = some s' ∧ _
      rw [Arr.get_some (by rw [hT.cellIds]; omega)]
      show ∃ s', (if T.cellIds.val (2 * T.internal.val k + 1) = -1 then _ else _) = some s' ∧ _
      by_cases hr : T.cellIds.val (2 * T.internal.val k + 1) = -1
      · rw [if_pos hr]
        refine ⟨s, rfl, ⟨hs, hs1, hs2⟩, ?_⟩
        intro e he r hh
        by_cases h : e = k
        · subst h; rw [rightOf_none hr] at hh; exact absurd hh (by simp)
        · exact hv e (by omega) r hh
      · obtain ⟨hl0, hl1⟩ := hT.left _ hid
        obtain ⟨hr0, hr1⟩ := (hT.right _ hid).resolve_left hr
        rw [if_neg hr, asIndex_some hl0]
        show ∃ s', (asIndex (T.cellIds.val (2 * T.internal.val k + 1))).bind _ = some s' ∧ _
        rw [asIndex_some hr0]
        show ∃ s', (zc.get _).bind _ = some s' ∧ _
        rw [Arr.get_some (by rw [hz]; exact hl1)]
        show ∃ s', (zc.get _).bind _ = some s' ∧ _
        rw [Arr.get_some (by rw [hz]; exact hr1)]
        obtain ⟨L, l1, l2, l3, l4⟩ := tPutHR_spec (P := P) hs.left hu (zc.val (T.cellIds.val (2 * T.internal.val k)).toNat)
          (max (zc.val (T.cellIds.val (2 * T.internal.val k)).toNat) (zc.val (T.cellIds.val (2 * T.internal.val k + 1)).toNat)) hk hl1
        obtain ⟨R, r1, r2, r3, r4⟩ := tPutHR_spec (P := P) hs.right hu (zc.val (T.cellIds.val (2 * T.internal.val k + 1)).toNat)
          (max (zc.val (T.cellIds.val (2 * T.internal.val k)).toNat) (zc.val (T.cellIds.val (2 * T.internal.val k + 1)).toNat)) hk hr1
        show ∃ s', (tPutHR P nt s.left k u _ _ _).bind _ = some s' ∧ _
        rw [l1]
        show ∃ s', (tPutHR P nt s.right k u _ _ _).bind _ = some s' ∧ _
        rw [r1]
        refine ⟨_, rfl, ⟨⟨l2, r2, hs.sn, hs.cn, hs.flux⟩, hs1, hs2⟩, ?_⟩
        intro e he r hh
        by_cases h : e = k
        · subst h
          rw [rightOf_some hr] at hh
          cases hh
          exact ⟨l3, r3⟩
        · obtain ⟨x, y⟩ := hv e (by omega) r hh
          exact ⟨l4 e h _ x, r4 e h _ y⟩)
  exact ⟨b', h1, h2.1, h2.2.1, h2.2.2, h3⟩

/-- what one edge adds in a cell: the correction -/
theorem addCorrectionT_spec {T : Tables} {c nc n nt : ℕ} (P : FlowParams) (h hrec sn cn s : ℝ) {f : Arr Num} (hc : c < nc)
    (how : T.owned.len = nc) (hl : T.l2o.len = nc) (ho : T.owned.val c = true → T.l2o.val c < n) (hf : f.len = (3 + nt) * n) :
    ∃ f', addCorrectionT nt T c (0.5 * P.g * (h * h - hrec * hrec)) sn cn s f = some f' ∧ f'.len = f.len ∧ ∀ o i, i < 3 + nt →
      f'.val ((3 + nt) * o + i) = (f.val ((3 + nt) * o + i)).add
        (recv (T.owned.val c) (T.l2o.val c) o (some (hrTCorrection P h hrec sn cn i * s))) := by
  unfold addCorrectionT
  rw [Arr.get_some (by omega)]
  show ∃ f', (if T.owned.val c = true then _ else _) = some f' ∧ _
  by_cases hw : T.owned.val c = true
  · have hlt := ho hw
    have hin : ∀ j < 3 + nt, (3 + nt) * T.l2o.val c + j < f.len := fun j hj => by rw [hf]; exact flat_lt hlt hj
    rw [if_pos hw, Arr.get_some (by omega)]
    show ∃ f', (incr f ((3 + nt) * T.l2o.val c + 1) _).bind _ = some f' ∧ _
    rw [incr_some _ (hin 1 (by omega))]
    refine ⟨_, incr_some _ (show (3 + nt) * T.l2o.val c + 2 < f.len from hin 2 (by omega)), rfl, ?_⟩
    intro o i hi
    show Function.update (Function.update f.val ((3 + nt) * T.l2o.val c + 1) _) ((3 + nt) * T.l2o.val c + 2) _ ((3 + nt) * o + i) = _
    unfold recv hrTCorrection
    by_cases hoo : o = T.l2o.val c
    · subst hoo
      rw [if_pos ⟨hw, rfl⟩]
      by_cases i1 : i = 1
      · subst i1
        rw [Function.update_of_ne (by omega), Function.update_self, if_pos rfl]
      · rw [if_neg i1]
        by_cases i2 : i = 2
        · subst i2
          rw [Function.update_self, if_pos rfl]
          show (Function.update f.val _ _ _).add _ = _
          rw [Function.update_of_ne (by omega)]
        · rw [if_neg i2, Function.update_of_ne (by omega), Function.update_of_ne (by omega), zero_mul, Num.add_zero']
    · rw [Function.update_of_ne (fun q => hoo ((flat_inj hi (by omega)).mp q).1),
        Function.update_of_ne (fun q => hoo ((flat_inj hi (by omega)).mp q).1), if_neg (fun q => hoo q.2.symm), Num.add_zero']
  · rw [if_neg hw]
    refine ⟨f, rfl, rfl, ?_⟩
    intro o i _
    unfold recv
    rw [if_neg (fun q => hw q.1), Num.add_zero']

/-- what the edge `e` of the list of internal edges adds to entry `(o, i)` with hydrostatic reconstruction over the beds `z` -/
noncomputable def hrTTerm (sv : TSolver) (P : FlowParams) (nt : ℕ) (T : Tables) (z : ℕ → ℝ) (u : Arr ℝ) (o i e : ℕ) : Num :=
  match T.rightOf (T.internal.val e) with
  | none => some 0
  | some r =>
    if (tStateAt nt u r).q.h < P.tinyH ∧ (tStateAt nt u (T.leftOf (T.internal.val e))).q.h < P.tinyH then some 0
    else
      (((recv (T.owned.val (T.leftOf (T.internal.val e))) (T.l2o.val (T.leftOf (T.internal.val e))) o
        (Num.scale ((hrTFlux sv P nt (hrTPair P nt z u (T.leftOf (T.internal.val e)) r).1 (hrTPair P nt z u (T.leftOf (T.internal.val e)) r).2
          (T.sn.val (T.internal.val e)) (T.cn.val (T.internal.val e))).map fun F => F i)
          (-(T.elen.val (T.internal.val e)) / T.area.val (T.leftOf (T.internal.val e))))).add
      (recv (T.owned.val r) (T.l2o.val r) o
        (Num.scale ((hrTFlux sv P nt (hrTPair P nt z u (T.leftOf (T.internal.val e)) r).1 (hrTPair P nt z u (T.leftOf (T.internal.val e)) r).2
          (T.sn.val (T.internal.val e)) (T.cn.val (T.internal.val e))).map fun F => F i)
          (T.elen.val (T.internal.val e) / T.area.val r)))).add
      (recv (T.owned.val (T.leftOf (T.internal.val e))) (T.l2o.val (T.leftOf (T.internal.val e))) o
        (some (hrTCorrection P (tStateAt nt u (T.leftOf (T.internal.val e))).q.h (hrTPair P nt z u (T.leftOf (T.internal.val e)) r).1.p.h
          (T.sn.val (T.internal.val e)) (T.cn.val (T.internal.val e)) i *
          (-(T.elen.val (T.internal.val e)) / T.area.val (T.leftOf (T.internal.val e))))))).add
      (recv (T.owned.val r) (T.l2o.val r) o
        (some (hrTCorrection P (tStateAt nt u r).q.h (hrTPair P nt z u (T.leftOf (T.internal.val e)) r).2.p.h
          (T.sn.val (T.internal.val e)) (T.cn.val (T.internal.val e)) i * (T.elen.val (T.internal.val e) / T.area.val r))))

theorem hrTAdd_spec {sv : TSolver} {P : FlowParams} {T : Tables} {nc n ne nt : ℕ} (hT : T.Valid nc n ne) {zc u : Arr ℝ} (hz : zc.len = nc)
    (hu : u.len = (3 + nt) * nc) {b : TBatch} (hb : b.Sized T.internal.len nt) (hn : b.HasNormals T)
    (hst : ∀ e < T.internal.len, ∀ r, T.rightOf (T.internal.val e) = some r →
      ∀ i < 3 + nt, b.flux.val ((3 + nt) * e + i) = (tracerFlux sv P.g nt (hrTPair P nt zc.val u (T.leftOf (T.internal.val e)) r).1
        (hrTPair P nt zc.val u (T.leftOf (T.internal.val e)) r).2
        (T.sn.val (T.internal.val e)) (T.cn.val (T.internal.val e))).map fun F => F i)
    {f : Arr Num} (hf : f.len = (3 + nt) * n) :
    ∃ f', loopM (hrTAddStep P nt T zc u b) T.internal.len f = some f' ∧ f'.len = f.len ∧ ∀ o i, i < 3 + nt →
      f'.val ((3 + nt) * o + i) = (List.range T.internal.len).foldl (fun (a : Num) (e : ℕ) => a.add (hrTTerm sv P nt T zc.val u o i e))
        (f.val ((3 + nt) * o + i)) := by
  refine loopM_inv (step := hrTAddStep P nt T zc u b) (n := T.internal.len) (s := f)
    (fun k s => s.len = f.len ∧ ∀ o i, i < 3 + nt → s.val ((3 + nt) * o + i) =
      (List.range k).foldl (fun (a : Num) (e : ℕ) => a.add (hrTTerm sv P nt T zc.val u o i e)) (f.val ((3 + nt) * o + i)))
    ⟨rfl, by intro o i _; rfl⟩ ?_
  rintro k hk s ⟨hsl, hsv⟩
  have hid := hT.ids k hk
  unfold hrTAddStep
  rw [Arr.get_some hk]
  show ∃ s', (T.cellIds.get (2 * T.internal.val k)).bind _ = some s' ∧ _
  rw [Arr.get_some (by rw [hT.cellIds]; omega)]
  show ∃ s', (T.cellIds.get (2 * T.internal.val k + 1)).bind _ = some s' ∧ _
  rw [Arr.get_some (by rw [hT.cellIds]; omega)]
  show ∃ s', (if T.cellIds.val (2 * T.internal.val k + 1) = -1 then _ else _) = some s' ∧ _
  by_cases hr : T.cellIds.val (2 * T.internal.val k + 1) = -1
  · rw [if_pos hr]
    refine ⟨s, rfl, hsl, ?_⟩
    intro o i hi
    rw [List.range_succ, List.foldl_append, ← hsv o i hi]
    show _ = (s.val ((3 + nt) * o + i)).add (hrTTerm sv P nt T zc.val u o i k)
    unfold hrTTerm
    rw [rightOf_none hr]
    exact (Num.add_zero' _).symm
  · obtain ⟨hl0, hl1⟩ := hT.left _ hid
    obtain ⟨hr0, hr1⟩ := (hT.right _ hid).resolve_left hr
    have hF := hst k hk _ (rightOf_some hr)
    obtain ⟨hs1, hc1⟩ := hn k hk (by rw [rightOf_some hr]; rfl)
    rw [if_neg hr, asIndex_some hl0]
    show ∃ s', (asIndex (T.cellIds.val (2 * T.internal.val k + 1))).bind _ = some s' ∧ _
    rw [asIndex_some hr0]
    show ∃ s', (u.get ((3 + nt) * T.leftOf (T.internal.val k) + 0)).bind _ = some s' ∧ _
    have hl1' : T.leftOf (T.internal.val k) < nc := hl1
    rw [Arr.get_some (by rw [hu]; exact flat_lt hl1' (by omega))]
    show ∃ s', (u.get ((3 + nt) * (T.cellIds.val (2 * T.internal.val k + 1)).toNat + 0)).bind _ = some s' ∧ _
    rw [Arr.get_some (by rw [hu]; exact flat_lt hr1 (by omega))]
    generalize hre : (T.cellIds.val (2 * T.internal.val k + 1)).toNat = r at *
    show ∃ s', (if (tStateAt nt u r).q.h < P.tinyH ∧ (tStateAt nt u (T.leftOf (T.internal.val k))).q.h < P.tinyH then _ else _) = some s' ∧ _
    have hrt : T.rightOf (T.internal.val k) = some r := by rw [rightOf_some hr, hre]
    by_cases hd : (tStateAt nt u r).q.h < P.tinyH ∧ (tStateAt nt u (T.leftOf (T.internal.val k))).q.h < P.tinyH
    · rw [if_pos hd]
      refine ⟨s, rfl, hsl, ?_⟩
      intro o i hi
      rw [List.range_succ, List.foldl_append, ← hsv o i hi]
      show _ = (s.val ((3 + nt) * o + i)).add (hrTTerm sv P nt T zc.val u o i k)
      unfold hrTTerm
      rw [hrt]
      dsimp only
      rw [if_pos hd, Num.add_zero']
    · rw [if_neg hd]
      show ∃ s', (zc.get (T.leftOf (T.internal.val k))).bind _ = some s' ∧ _
      rw [Arr.get_some (by rw [hz]; exact hl1')]
      show ∃ s', (zc.get r).bind _ = some s' ∧ _
      rw [Arr.get_some (by rw [hz]; exact hr1)]
      show ∃ s', hrTAddWet P nt T b k (T.internal.val k) (T.leftOf (T.internal.val k)) r (tStateAt nt u (T.leftOf (T.internal.val k))).q.h
        (tStateAt nt u r).q.h (zc.val (T.leftOf (T.internal.val k))) (zc.val r) s = some s' ∧ _
      unfold hrTAddWet
      rw [Arr.get_some (by rw [hT.elen]; exact hid)]
      show ∃ s', (T.area.get _).bind _ = some s' ∧ _
      rw [Arr.get_some (by rw [hT.area]; exact hl1')]
      show ∃ s', (T.area.get _).bind _ = some s' ∧ _
      rw [Arr.get_some (by rw [hT.area]; exact hr1)]
      show ∃ s', (b.cn.get _).bind _ = some s' ∧ _
      rw [Arr.get_some (by rw [hb.cn]; exact hk)]
      show ∃ s', (b.sn.get _).bind _ = some s' ∧ _
      rw [Arr.get_some (by rw [hb.sn]; exact hk), hs1, hc1]
      obtain ⟨f1, a1, a2, a3⟩ : ∃ f1, (if (hrTPair P nt zc.val u (T.leftOf (T.internal.val k)) r).1.p.h > P.tinyH ∨
          (hrTPair P nt zc.val u (T.leftOf (T.internal.val k)) r).2.p.h > P.tinyH then
          addToCells (3 + nt) T b.flux k (T.internal.val k) (T.leftOf (T.internal.val k)) r s else some s) = some f1 ∧ f1.len = s.len ∧
          ∀ o i, i < 3 + nt → f1.val ((3 + nt) * o + i) = (s.val ((3 + nt) * o + i)).add
            ((recv (T.owned.val (T.leftOf (T.internal.val k))) (T.l2o.val (T.leftOf (T.internal.val k))) o
              (Num.scale ((hrTFlux sv P nt (hrTPair P nt zc.val u (T.leftOf (T.internal.val k)) r).1
                (hrTPair P nt zc.val u (T.leftOf (T.internal.val k)) r).2
                (T.sn.val (T.internal.val k)) (T.cn.val (T.internal.val k))).map fun F => F i)
                (-(T.elen.val (T.internal.val k)) / T.area.val (T.leftOf (T.internal.val k))))).add
            (recv (T.owned.val r) (T.l2o.val r) o
              (Num.scale ((hrTFlux sv P nt (hrTPair P nt zc.val u (T.leftOf (T.internal.val k)) r).1
                (hrTPair P nt zc.val u (T.leftOf (T.internal.val k)) r).2
                (T.sn.val (T.internal.val k)) (T.cn.val (T.internal.val k))).map fun F => F i)
                (T.elen.val (T.internal.val k) / T.area.val r)))) := by
        unfold hrTFlux
        by_cases hg : (hrTPair P nt zc.val u (T.leftOf (T.internal.val k)) r).1.p.h > P.tinyH ∨
          (hrTPair P nt zc.val u (T.leftOf (T.internal.val k)) r).2.p.h > P.tinyH
        · rw [if_pos hg]
          obtain ⟨f1, e1, e2, e3⟩ := addToCells_spec (nd := 3 + nt) (flux := b.flux) (f := s) (id := T.internal.val k) hl1' hr1 hT.owned
            hT.l2o hT.area hT.range (show T.internal.val k < T.elen.len by rw [hT.elen]; exact hid) (by rw [hsl, hf]) hb.flux hk
          refine ⟨f1, e1, e2, ?_⟩
          intro o i hi
          rw [e3 o i hi, hF i hi, Num.add_assoc', if_pos hg]
        · rw [if_neg hg]
          refine ⟨s, rfl, rfl, ?_⟩
          intro o i hi
          rw [if_neg hg, Option.map_some, Num.scale_zero, Num.scale_zero, recv_zero, recv_zero, Num.add_zero', Num.add_zero']
      obtain ⟨f2, b1, b2, b3⟩ := addCorrectionT_spec (T := T) P (tStateAt nt u (T.leftOf (T.internal.val k))).q.h
        (hrTPair P nt zc.val u (T.leftOf (T.internal.val k)) r).1.p.h (T.sn.val (T.internal.val k)) (T.cn.val (T.internal.val k))
        (-(T.elen.val (T.internal.val k)) / T.area.val (T.leftOf (T.internal.val k))) (f := f1) hl1' hT.owned hT.l2o (hT.range _ hl1')
        (by rw [a2, hsl, hf])
      obtain ⟨f3, c1, c2, c3⟩ := addCorrectionT_spec (T := T) P (tStateAt nt u r).q.h
        (hrTPair P nt zc.val u (T.leftOf (T.internal.val k)) r).2.p.h (T.sn.val (T.internal.val k)) (T.cn.val (T.internal.val k))
        (T.elen.val (T.internal.val k) / T.area.val r) (f := f2) hr1 hT.owned hT.l2o (hT.range _ hr1)
        (by rw [b2, a2, hsl, hf])
      refine ⟨f3, ?_, by rw [c2, b2, a2, hsl], ?_⟩
      · dsimp only [Option.bind_some]
        refine Eq.trans (congrArg (fun x => Option.bind x _) a1) ?_
        show (addCorrectionT nt T _ _ _ _ _ f1).bind _ = _
        refine Eq.trans (congrArg (fun x => Option.bind x _) b1) ?_
        exact c1
      · intro o i hi
        rw [List.range_succ, List.foldl_append, ← hsv o i hi, c3 o i hi, b3 o i hi, a3 o i hi]
        show _ = (s.val ((3 + nt) * o + i)).add (hrTTerm sv P nt T zc.val u o i k)
        unfold hrTTerm
        rw [hrt]
        dsimp only
        rw [if_neg hd]
        simp only [Num.add_assoc']

/-- The interior operator with hydrostatic reconstruction: no undefined access, and the result depends on the state only. -/
theorem applyTracerInteriorHRB_spec {sv : TSolver} {P : FlowParams} {T : Tables} {nc n ne nt : ℕ} (hnt : 3 + nt ≤ maxFieldComponents)
    (hT : T.Valid nc n ne) {zc u : Arr ℝ} (hz : zc.len = nc) (hu : u.len = (3 + nt) * nc) {b : TBatch} (hb : b.Sized T.internal.len nt)
    (hn : b.HasNormals T) {f : Arr Num} (hf : f.len = (3 + nt) * n) :
    ∃ b' f', applyTracerInteriorHRB sv P nt T zc b u f = some (b', f') ∧ b'.Sized T.internal.len nt ∧ b'.HasNormals T ∧ f'.len = f.len ∧
      ∀ o i, i < 3 + nt → f'.val ((3 + nt) * o + i) = (List.range T.internal.len).foldl
        (fun (a : Num) (e : ℕ) => a.add (hrTTerm sv P nt T zc.val u o i e)) (f.val ((3 + nt) * o + i)) := by
  obtain ⟨b1, g1, g2, g3, g4, g6⟩ := hrTGather_spec (P := P) hT hz hu hb
  unfold applyTracerInteriorHRB
  rw [g1]
  obtain ⟨F, r1, r2, r3⟩ := tRoeB_spec (sv := sv) (g := P.g) hnt g2.left g2.right g2.sn g2.cn g2.flux
  show ∃ b' f', (tRoeB sv P.g nt _ _ b1.sn b1.cn b1.flux).bind _ = _ ∧ _
  rw [r1]
  have hsz : (⟨b1.left, b1.right, b1.sn, b1.cn, F⟩ : TBatch).Sized T.internal.len nt :=
    ⟨g2.left, g2.right, g2.sn, g2.cn, r2.trans g2.flux⟩
  have hnn : (⟨b1.left, b1.right, b1.sn, b1.cn, F⟩ : TBatch).HasNormals T := by
    intro e he hs
    show b1.sn.val e = _ ∧ b1.cn.val e = _
    rw [g3, g4]
    exact hn e he hs
  obtain ⟨f', a1, a2, a3⟩ := hrTAdd_spec (sv := sv) (P := P) hT hz hu hsz hnn (by
    intro e he r hr i hi
    obtain ⟨hx, hy⟩ := g6 e he r hr
    obtain ⟨hs, hc⟩ := hnn e he (by rw [hr]; rfl)
    show F.val ((3 + nt) * e + i) = _
    rw [r3 e he _ _ hx hy i hi, show b1.sn.val e = _ from hs, show b1.cn.val e = _ from hc]) hf
  show ∃ b' f', (loopM _ T.internal.len f).map _ = _ ∧ _
  rw [a1]
  exact ⟨_, f', rfl, hsz, hnn, a2, a3⟩

/-! ### The source operators -/

/-- the bed-slope term of cell `c` -/
noncomputable def tBedOf (P : FlowParams) (slope : Bool) (V : BedTables) (nt : ℕ) (u : Arr ℝ) (c : ℕ) : ℝ × ℝ :=
  bedTerm P slope (V.dzdx.val c) (V.dzdy.val c) (tStateAt nt u c).q.h

/-- the friction term of cell `c`, where `fd` are the divergences by owned number and component -/
noncomputable def tFrictionOf (P : FlowParams) (slope : Bool) (nt : ℕ) (T : Tables) (V : BedTables) (dt : ℝ) (mat : Arr ℝ)
    (fd : ℕ → ℕ → Num) (u : Arr ℝ) (c : ℕ) : Option (ℝ × ℝ) :=
  if (tStateAt nt u c).q.h ≥ P.tinyH then
    frictionB P .semiImplicit dt (mat.val c) (tStateAt nt u c).q (fd (T.l2o.val c) 1) (fd (T.l2o.val c) 2) (tBedOf P slope V nt u c).1
      (tBedOf P slope V nt u c).2
  else some (0, 0)

/-- what the source operator adds to component `i` of cell `c` -/
noncomputable def tSourceEntry (P : FlowParams) (slope : Bool) (nt : ℕ) (T : Tables) (V : BedTables) (dt : ℝ)
    (src mat : Arr ℝ) (fd : ℕ → ℕ → Num) (u : Arr ℝ) (i c : ℕ) : Num :=
  if i = 0 then some (src.val ((3 + nt) * T.l2o.val c))
  else if i = 1 then (tFrictionOf P slope nt T V dt mat fd u c).map fun t =>
    -(tBedOf P slope V nt u c).1 - t.1 + src.val ((3 + nt) * T.l2o.val c + 1)
  else if i = 2 then (tFrictionOf P slope nt T V dt mat fd u c).map fun t =>
    -(tBedOf P slope V nt u c).2 - t.2 + src.val ((3 + nt) * T.l2o.val c + 2)
  else some (tracerSource P (mat.val c) (tStateAt nt u c) (src.val ((3 + nt) * T.l2o.val c + i)) (i - 3))

/-- what cell `c` adds to entry `(o, i)` -/
noncomputable def tSrcTerm (P : FlowParams) (slope : Bool) (nt : ℕ) (T : Tables) (V : BedTables) (dt : ℝ)
    (src mat : Arr ℝ) (fd : ℕ → ℕ → Num) (u : Arr ℝ) (o i c : ℕ) : Num :=
  recv (T.owned.val c) (T.l2o.val c) o (tSourceEntry P slope nt T V dt src mat fd u i c)

/-- the primitive variables that are kept for output, component `i` of a cell -/
noncomputable def primEntry (P : FlowParams) (s : TCons) (i : ℕ) : ℝ :=
  if i < 3 then (velocities P.tinyH P.hAnuga s.q).comp i else if s.q.h < P.tinyH then 0 else s.hc (i - 3) / s.q.h

theorem incr_mk {m p : ℕ} (v : ℕ → Num) (x : Num) (h : p < m) :
    incr ⟨m, v⟩ p x = some ⟨m, Function.update v p ((v p).add x)⟩ := incr_some (f := ⟨m, v⟩) x h

theorem put_mk {m p : ℕ} (v : ℕ → ℝ) (x : ℝ) (h : p < m) : (⟨m, v⟩ : Arr ℝ).put p x = some ⟨m, Function.update v p x⟩ :=
  Arr.put_some (a := ⟨m, v⟩) x h

theorem tWetB_spec {P : FlowParams} {nt n nc : ℕ} (dt : ℝ) {src mat u : Arr ℝ} (hs : src.len = (3 + nt) * n) (hu : u.len = (3 + nt) * nc)
    {c o' : ℕ} (hc : c < nc) (ho : o' < n) (hm : c < mat.len) (fx fy : Num) (b : ℝ × ℝ) {f : Arr Num} (hf : f.len = (3 + nt) * n) :
    ∃ f', tWetB P nt dt src mat u c o' (tStateAt nt u c).q fx fy b f = some (if (tStateAt nt u c).q.h ≥ P.tinyH then
        frictionB P .semiImplicit dt (mat.val c) (tStateAt nt u c).q fx fy b.1 b.2 else some (0, 0), f') ∧ f'.len = f.len ∧
      ∀ o i, i < 3 + nt → f'.val ((3 + nt) * o + i) = (f.val ((3 + nt) * o + i)).add (recv true o' o (if i < 3 then some 0 else
        some (tracerSource P (mat.val c) (tStateAt nt u c) (src.val ((3 + nt) * o' + i)) (i - 3)))) := by
  unfold tWetB
  by_cases hw : (tStateAt nt u c).q.h ≥ P.tinyH
  · rw [if_pos hw, if_pos hw, Arr.get_some hm]
    show ∃ f', (loopM _ nt f).map _ = _ ∧ _
    obtain ⟨f', h1, h2, h3⟩ := loopM_inv (step := tSedimentStep P nt src u (mat.val c) c o' (tStateAt nt u c).q) (n := nt) (s := f)
      (fun k s => s.len = f.len ∧ ∀ o i, i < 3 + nt → s.val ((3 + nt) * o + i) = (f.val ((3 + nt) * o + i)).add
        (recv true o' o (if i < 3 then some 0 else if i < 3 + k then
          some (tracerSource P (mat.val c) (tStateAt nt u c) (src.val ((3 + nt) * o' + i)) (i - 3)) else some 0)))
      ⟨rfl, by
        intro o i _
        by_cases h : i < 3
        · rw [if_pos h, recv_zero, Num.add_zero']
        · rw [if_neg h, if_neg (by omega), recv_zero, Num.add_zero']⟩ (by
        rintro k hk s ⟨hsl, hsv⟩
        have i1 : (3 + nt) * c + 3 + k < u.len := by rw [hu, Nat.add_assoc]; exact flat_lt hc (by omega)
        have i2 : (3 + nt) * o' + 3 + k < src.len := by rw [hs, Nat.add_assoc]; exact flat_lt ho (by omega)
        have i3 : (3 + nt) * o' + 3 + k < s.len := by rw [hsl, hf, Nat.add_assoc]; exact flat_lt ho (by omega)
        unfold tSedimentStep
        rw [Arr.get_some i1]
        show ∃ s', (src.get _).bind _ = some s' ∧ _
        rw [Arr.get_some i2]
        refine ⟨_, incr_some _ i3, hsl, ?_⟩
        intro o i hi
        show Function.update s.val ((3 + nt) * o' + 3 + k) _ ((3 + nt) * o + i) = _
        by_cases h : o = o' ∧ i = 3 + k
        · obtain ⟨rfl, rfl⟩ := h
          rw [Nat.add_assoc, Function.update_self, hsv o (3 + k) hi, if_neg (by omega), if_neg (by omega), recv_zero, Num.add_zero', if_neg (by omega),
            if_pos (by omega)]
          unfold recv tracerSource
          rw [if_pos ⟨rfl, rfl⟩, if_pos hw, show 3 + k - 3 = k by omega]
          rfl
        · rw [Nat.add_assoc, Function.update_of_ne (by rw [Ne, flat_inj hi (by omega)]; exact h), hsv o i hi]
          unfold recv
          by_cases ho2 : o' = o
          · have q2 : true = true ∧ o' = o := ⟨rfl, ho2⟩
            rw [if_pos q2, if_pos q2]
            have : i ≠ 3 + k := fun q => h ⟨ho2.symm, q⟩
            by_cases h3 : i < 3
            · rw [if_pos h3, if_pos h3]
            · rw [if_neg h3, if_neg h3]
              by_cases h4 : i < 3 + k
              · rw [if_pos h4, if_pos (by omega)]
              · rw [if_neg h4, if_neg (by omega)]
          · rw [if_neg (fun q => ho2 q.2), if_neg (fun q => ho2 q.2)])
    rw [h1]
    refine ⟨f', rfl, h2, fun o i hi => ?_⟩
    rw [h3 o i hi, if_pos (show i < 3 + nt from hi)]
  · rw [if_neg hw, if_neg hw]
    refine ⟨f, rfl, rfl, fun o i hi => ?_⟩
    unfold tracerSource
    rw [if_neg hw, ite_self, recv_zero, Num.add_zero']

theorem addFlowSourceT_spec {n nt : ℕ} {src : Arr ℝ} (hs : src.len = (3 + nt) * n) {o' : ℕ} (ho : o' < n) (b : ℝ × ℝ) (t : Option (ℝ × ℝ)) {f : Arr Num}
    (hf : f.len = (3 + nt) * n) : ∃ f', addFlowSourceT nt src o' b t f = some f' ∧ f'.len = f.len ∧ ∀ o i, i < 3 + nt →
      f'.val ((3 + nt) * o + i) = (f.val ((3 + nt) * o + i)).add (recv true o' o (if i = 0 then some (src.val ((3 + nt) * o'))
        else if i = 1 then t.map fun t => -b.1 - t.1 + src.val ((3 + nt) * o' + 1)
        else if i = 2 then t.map fun t => -b.2 - t.2 + src.val ((3 + nt) * o' + 2) else some 0)) := by
  have hin : ∀ j < 3 + nt, (3 + nt) * o' + j < f.len := fun j hj => by rw [hf]; exact flat_lt ho hj
  have hin' : ∀ j < 3 + nt, (3 + nt) * o' + j < src.len := fun j hj => by rw [hs]; exact flat_lt ho hj
  unfold addFlowSourceT
  rw [Arr.get_some (hin' 0 (by omega)), Arr.get_some (hin' 1 (by omega)), Arr.get_some (hin' 2 (by omega))]
  show ∃ f', (incr f ((3 + nt) * o' + 0) _).bind _ = some f' ∧ _
  rw [incr_some _ (hin 0 (by omega))]
  show ∃ f', (incr _ ((3 + nt) * o' + 1) _).bind _ = some f' ∧ _
  rw [incr_mk _ _ (hin 1 (by omega))]
  refine ⟨_, incr_some _ (show (3 + nt) * o' + 2 < f.len from hin 2 (by omega)), rfl, ?_⟩
  intro o i hi
  dsimp only
  unfold recv
  by_cases h : o = o'
  · subst h
    rw [if_pos ⟨rfl, rfl⟩]
    by_cases i0 : i = 0
    · subst i0
      rw [Function.update_of_ne (by omega), Function.update_of_ne (by omega), Function.update_self]
      rfl
    · rw [if_neg i0]
      by_cases i1 : i = 1
      · subst i1
        rw [Function.update_of_ne (by omega), Function.update_self, Function.update_of_ne (by omega)]
        rfl
      · rw [if_neg i1]
        by_cases i2 : i = 2
        · subst i2
          rw [Function.update_self, Function.update_of_ne (by omega), Function.update_of_ne (by omega)]
          rfl
        · rw [if_neg i2, Function.update_of_ne (by omega), Function.update_of_ne (by omega), Function.update_of_ne (by omega), Num.add_zero']
  · have hne : ∀ j < 3, (3 + nt) * o + i ≠ (3 + nt) * o' + j := fun j hj q => h ((flat_inj hi (by omega)).mp q).1
    rw [Function.update_of_ne (hne 2 (by omega)), Function.update_of_ne (hne 1 (by omega)), Function.update_of_ne (hne 0 (by omega)),
      if_neg (fun q => h q.2.symm), Num.add_zero']

theorem tPutPrim_spec {n nc nt : ℕ} (P : FlowParams) {u pv : Arr ℝ} (hu : u.len = (3 + nt) * nc) (hp : pv.len = (3 + nt) * n) {c o' : ℕ} (hc : c < nc)
    (ho : o' < n) : ∃ pv', tPutPrim P nt u pv c o' (tStateAt nt u c).q = some pv' ∧ pv'.len = pv.len ∧ ∀ o i, i < 3 + nt →
      pv'.val ((3 + nt) * o + i) = if o = o' then primEntry P (tStateAt nt u c) i else pv.val ((3 + nt) * o + i) := by
  have hin : ∀ j < 3 + nt, (3 + nt) * o' + j < pv.len := fun j hj => by rw [hp]; exact flat_lt ho hj
  have hif : ∀ (x : ℝ), (if (tStateAt nt u c).q.h ≥ P.tinyH then x else 0) = if (tStateAt nt u c).q.h < P.tinyH then 0 else x := by
    intro x
    by_cases hh : (tStateAt nt u c).q.h < P.tinyH
    · rw [if_pos hh, if_neg (by linarith)]
    · rw [if_neg hh, if_pos (by linarith)]
  unfold tPutPrim
  rw [Arr.put_some _ (hin 0 (by omega))]
  show ∃ pv', (Arr.put _ ((3 + nt) * o' + 1) _).bind _ = some pv' ∧ _
  rw [put_mk _ _ (hin 1 (by omega))]
  show ∃ pv', (Arr.put _ ((3 + nt) * o' + 2) _).bind _ = some pv' ∧ _
  rw [put_mk _ _ (hin 2 (by omega))]
  dsimp only [Option.bind_some]
  obtain ⟨pv', h1, h2, h3⟩ := loopM_inv (step := fun (p : Arr ℝ) (j : ℕ) => (u.get ((3 + nt) * c + 3 + j)).bind fun hc =>
      p.put ((3 + nt) * o' + 3 + j) (if (tStateAt nt u c).q.h ≥ P.tinyH then hc / (tStateAt nt u c).q.h else 0)) (n := nt)
    (s := ⟨pv.len, Function.update (Function.update (Function.update pv.val ((3 + nt) * o' + 0) (tStateAt nt u c).q.h) ((3 + nt) * o' + 1)
      (if (tStateAt nt u c).q.h ≥ P.tinyH then (tStateAt nt u c).q.hu * (tStateAt nt u c).q.h /
        ((tStateAt nt u c).q.h * (tStateAt nt u c).q.h + P.hAnuga * P.hAnuga) else 0)) ((3 + nt) * o' + 2)
      (if (tStateAt nt u c).q.h ≥ P.tinyH then (tStateAt nt u c).q.hv * (tStateAt nt u c).q.h /
        ((tStateAt nt u c).q.h * (tStateAt nt u c).q.h + P.hAnuga * P.hAnuga) else 0)⟩)
    (fun k s => s.len = pv.len ∧ ∀ o i, i < 3 + nt → s.val ((3 + nt) * o + i) =
      if o = o' ∧ i < 3 + k then primEntry P (tStateAt nt u c) i else pv.val ((3 + nt) * o + i))
    ⟨rfl, by
      intro o i hi
      dsimp only
      by_cases h : o = o'
      · subst h
        rw [hif, hif]
        by_cases h3 : i < 3
        · rw [if_pos (show o = o ∧ i < 3 + 0 from ⟨rfl, by omega⟩)]
          unfold primEntry velocities Prim.comp
          rw [if_pos h3]
          interval_cases i
          · rw [Function.update_of_ne (by omega), Function.update_of_ne (by omega), Function.update_self]
            by_cases hh : (tStateAt nt u c).q.h < P.tinyH <;> simp [hh]
          · rw [Function.update_of_ne (by omega), Function.update_self]
            by_cases hh : (tStateAt nt u c).q.h < P.tinyH
            · rw [if_pos hh, if_pos hh]; rfl
            · rw [if_neg hh, if_neg hh]; rfl
          · rw [Function.update_self]
            by_cases hh : (tStateAt nt u c).q.h < P.tinyH
            · rw [if_pos hh, if_pos hh]; rfl
            · rw [if_neg hh, if_neg hh]; rfl
        · rw [if_neg (show ¬ (o = o ∧ i < 3 + 0) from fun q => h3 q.2), Function.update_of_ne (by omega), Function.update_of_ne (by omega), Function.update_of_ne (by omega)]
      · have hne : ∀ j < 3, (3 + nt) * o + i ≠ (3 + nt) * o' + j := fun j hj q => h ((flat_inj hi (by omega)).mp q).1
        rw [if_neg (show ¬ (o = o' ∧ i < 3 + 0) from fun q => h q.1), Function.update_of_ne (hne 2 (by omega)), Function.update_of_ne (hne 1 (by omega)),
          Function.update_of_ne (hne 0 (by omega))]⟩ (by
      rintro k hk s ⟨hsl, hsv⟩
      have i1 : (3 + nt) * c + 3 + k < u.len := by rw [hu, Nat.add_assoc]; exact flat_lt hc (by omega)
      have i3 : (3 + nt) * o' + 3 + k < s.len := by rw [hsl, hp, Nat.add_assoc]; exact flat_lt ho (by omega)
      show ∃ s', (u.get ((3 + nt) * c + 3 + k)).bind _ = some s' ∧ _
      rw [Arr.get_some i1]
      refine ⟨_, Arr.put_some _ i3, hsl, ?_⟩
      intro o i hi
      show Function.update s.val ((3 + nt) * o' + 3 + k) _ ((3 + nt) * o + i) = _
      by_cases h : o = o' ∧ i = 3 + k
      · obtain ⟨rfl, rfl⟩ := h
        rw [Nat.add_assoc, Function.update_self, if_pos (show o = o ∧ 3 + k < 3 + (k + 1) from ⟨rfl, by omega⟩), hif]
        unfold primEntry
        rw [if_neg (show ¬ 3 + k < 3 by omega), show 3 + k - 3 = k by omega]
        rfl
      · rw [Nat.add_assoc, Function.update_of_ne (by rw [Ne, flat_inj hi (by omega)]; exact h), hsv o i hi]
        by_cases h2 : o = o' ∧ i < 3 + k
        · rw [if_pos h2, if_pos ⟨h2.1, by omega⟩]
        · rw [if_neg h2, if_neg]
          rintro ⟨q1, q2⟩
          have : i ≠ 3 + k := fun q => h ⟨q1, q⟩
          exact h2 ⟨q1, by omega⟩)
  refine ⟨pv', h1, h2, fun o i hi => ?_⟩
  rw [h3 o i hi]
  by_cases h : o = o'
  · rw [if_pos ⟨h, by omega⟩, if_pos h]
  · rw [if_neg (fun q => h q.1), if_neg h]

/-- The source operator: no undefined access if all owned cells have numbers below `n`, what it adds, and the primitive variables that it leaves. -/
theorem applyTSourceB_spec {P : FlowParams} (slope : Bool) {nt : ℕ} {T : Tables} {V : BedTables} {nc n ne : ℕ}
    (hT : T.Valid nc n ne) (hV : V.Valid nc) (hown : ∀ c < nc, T.owned.val c = true → c < n) (dt : ℝ) {src mat u : Arr ℝ} {fd : Arr Num}
    (hs : src.len = (3 + nt) * n) (hm : mat.len = n)
    (hfd : fd.len = (3 + nt) * n) (hu : u.len = (3 + nt) * nc) {s : SrcOut} (hf : s.f.len = (3 + nt) * n) (hp : s.pv.len = (3 + nt) * n) :
    ∃ s', applyTSourceB P slope nt T V nc dt src mat fd u s = some s' ∧ s'.f.len = (3 + nt) * n ∧ s'.pv.len = (3 + nt) * n ∧
      (∀ o i, i < 3 + nt → s'.f.val ((3 + nt) * o + i) = (List.range nc).foldl
        (fun (a : Num) (c : ℕ) => a.add (tSrcTerm P slope nt T V dt src mat (fun o i => fd.val ((3 + nt) * o + i)) u o i c))
        (s.f.val ((3 + nt) * o + i))) ∧
      (slope = false → s'.pv = s.pv) ∧
      (slope = true → (∀ c < nc, ∀ c' < nc, T.owned.val c = true → T.owned.val c' = true → T.l2o.val c = T.l2o.val c' → c = c') →
        ∀ c < nc, T.owned.val c = true → ∀ i < 3 + nt,
          s'.pv.val ((3 + nt) * T.l2o.val c + i) = primEntry P (tStateAt nt u c) i) := by
  unfold applyTSourceB
  refine loopM_inv (step := tSourceStepB P slope nt T V dt src mat fd u) (n := nc) (s := s)
    (fun k s' => s'.f.len = (3 + nt) * n ∧ s'.pv.len = (3 + nt) * n ∧
      (∀ o i, i < 3 + nt → s'.f.val ((3 + nt) * o + i) = (List.range k).foldl
        (fun (a : Num) (c : ℕ) => a.add (tSrcTerm P slope nt T V dt src mat (fun o i => fd.val ((3 + nt) * o + i)) u o i c))
        (s.f.val ((3 + nt) * o + i))) ∧
      (slope = false → s'.pv = s.pv) ∧
      (slope = true → (∀ c < nc, ∀ c' < nc, T.owned.val c = true → T.owned.val c' = true → T.l2o.val c = T.l2o.val c' → c = c') →
        ∀ c < k, T.owned.val c = true → ∀ i < 3 + nt,
          s'.pv.val ((3 + nt) * T.l2o.val c + i) = primEntry P (tStateAt nt u c) i))
    ⟨hf, hp, fun o i _ => rfl, fun _ => rfl, fun _ _ c hc => by omega⟩ ?_
  rintro k hk s1 ⟨i1, i2, i3, i4, i5⟩
  unfold tSourceStepB
  rw [Arr.get_some (by rw [hT.owned]; exact hk)]
  show ∃ s', (if T.owned.val k = true then _ else _) = some s' ∧ _
  by_cases hw : T.owned.val k = true
  · have ho := hT.range k hk hw
    have hin : ∀ j < 3 + nt, (3 + nt) * k + j < u.len := fun j hj => by rw [hu]; exact flat_lt hk hj
    have hin' : ∀ j < 3 + nt, (3 + nt) * T.l2o.val k + j < fd.len := fun j hj => by rw [hfd]; exact flat_lt ho hj
    rw [if_pos hw, Arr.get_some (by rw [hT.l2o]; exact hk)]
    show ∃ s', (u.get ((3 + nt) * k + 0)).bind _ = some s' ∧ _
    rw [Arr.get_some (hin 0 (by omega))]
    show ∃ s', (u.get ((3 + nt) * k + 1)).bind _ = some s' ∧ _
    rw [Arr.get_some (hin 1 (by omega))]
    show ∃ s', (u.get ((3 + nt) * k + 2)).bind _ = some s' ∧ _
    rw [Arr.get_some (hin 2 (by omega))]
    show ∃ s', (bedTermB P slope V k (tStateAt nt u k).q.h).bind _ = some s' ∧ _
    rw [bedTermB_some hV slope hk]
    show ∃ s', (fd.get ((3 + nt) * T.l2o.val k + 1)).bind _ = some s' ∧ _
    rw [Arr.get_some (hin' 1 (by omega))]
    show ∃ s', (fd.get ((3 + nt) * T.l2o.val k + 2)).bind _ = some s' ∧ _
    rw [Arr.get_some (hin' 2 (by omega))]
    obtain ⟨f1, w1, w2, w3⟩ := tWetB_spec (P := P) dt hs hu hk ho (by rw [hm]; exact hown k hk hw) (fd.val ((3 + nt) * T.l2o.val k + 1))
      (fd.val ((3 + nt) * T.l2o.val k + 2)) (tBedOf P slope V nt u k) (f := s1.f) i1
    obtain ⟨f', a1, a2, a3⟩ := addFlowSourceT_spec hs ho (tBedOf P slope V nt u k)
      (tFrictionOf P slope nt T V dt mat (fun o i => fd.val ((3 + nt) * o + i)) u k) (f := f1) (w2.trans i1)
    obtain ⟨pv', b1, b2, b3⟩ := tPutPrim_spec P (pv := s1.pv) hu i2 hk ho
    refine ⟨⟨f', if slope = true then pv' else s1.pv⟩, ?_, (a2.trans w2).trans i1, ?_, ?_, ?_, ?_⟩
    · dsimp only [Option.bind_some]
      refine Eq.trans (congrArg (fun x => Option.bind x _) w1) ?_
      dsimp only [Option.bind_some]
      refine Eq.trans (congrArg (fun x => Option.bind x _) a1) ?_
      dsimp only [Option.bind_some]
      cases slope with
      | false => rfl
      | true =>
        rw [if_pos rfl, if_pos rfl]
        refine Eq.trans (congrArg (fun x => Option.map _ x) b1) ?_
        rfl
    · dsimp only
      split
      · exact b2.trans i2
      · exact i2
    · intro o i hi
      rw [List.range_succ, List.foldl_append, ← i3 o i hi]
      show f'.val _ = (s1.f.val ((3 + nt) * o + i)).add
        (tSrcTerm P slope nt T V dt src mat (fun o i => fd.val ((3 + nt) * o + i)) u o i k)
      rw [a3 o i hi, w3 o i hi, Num.add_assoc']
      congr 1
      unfold tSrcTerm tSourceEntry recv
      rw [hw]
      by_cases hoo : T.l2o.val k = o
      · have q2 : true = true ∧ T.l2o.val k = o := ⟨rfl, hoo⟩
        rw [if_pos q2, if_pos q2, if_pos q2]
        have hz : ∀ x : Num, Num.add (some 0) x = x := by
          intro x; cases x with
          | none => rfl
          | some y => exact congrArg some (zero_add y)
        by_cases h0 : i = 0
        · rw [if_pos (by omega), if_pos h0, if_pos h0, hz]
        · rw [if_neg h0, if_neg h0]
          by_cases h1 : i = 1
          · rw [if_pos (by omega), if_pos h1, if_pos h1, hz]
          · rw [if_neg h1, if_neg h1]
            by_cases h2 : i = 2
            · rw [if_pos (by omega), if_pos h2, if_pos h2, hz]
            · rw [if_neg h2, if_neg h2, if_neg (by omega), Num.add_zero']
      · rw [if_neg (fun q => hoo q.2), if_neg (fun q => hoo q.2), if_neg (fun q => hoo q.2), Num.add_zero']
    · intro hsl
      dsimp only
      rw [if_neg (by rw [hsl]; simp)]
      exact i4 hsl
    · intro hsl hinj c hc hwc i hi
      dsimp only
      rw [if_pos hsl, b3 _ i hi]
      by_cases h : c = k
      · subst h; rw [if_pos rfl]
      · rw [if_neg (fun q => h (hinj c (by omega) k hk hwc hw q))]
        exact i5 hsl hinj c (by omega) hwc i hi
  · rw [if_neg hw]
    refine ⟨s1, rfl, i1, i2, ?_, i4, ?_⟩
    · intro o i hi
      rw [List.range_succ, List.foldl_append, ← i3 o i hi]
      show _ = (s1.f.val ((3 + nt) * o + i)).add
        (tSrcTerm P slope nt T V dt src mat (fun o i => fd.val ((3 + nt) * o + i)) u o i k)
      unfold tSrcTerm recv
      rw [if_neg (fun q => hw q.1), Num.add_zero']
    · intro hsl hinj c hc hwc i hi
      by_cases h : c = k
      · subst h; exact absurd hwc hw
      · exact i5 hsl hinj c (by omega) hwc i hi

/-! ### The right-hand side -/

/-- The operators are ready: the arrays have the sizes of the mesh, the normals are those of the edges and, with hydrostatic
reconstruction, the bed elevations are the means of the vertices. -/
def TPetscMem.Ready (M : TPetscMem) (wb : WellBalancing) (nt : ℕ) (T : Tables) (V : BedTables) (Bs : List TBnd) (nc : ℕ) : Prop :=
  M.flux.Ready nt T Bs ∧
    ((wb ≠ .hr ∧ M.zc = none) ∨
      (wb = .hr ∧ ∃ zc, M.zc = some zc ∧ zc.len = nc ∧ ∀ c < nc, zc.val c = BedTables.zcOf { V with fromFile := false } c))

/-- The vectors of data fit `n` owned cells. -/
structure PetscVecs.FitsT (D : PetscVecs) (nt n : ℕ) : Prop where
  src : D.src.len = (3 + nt) * n
  mat : D.mat.len = n
  pv : D.pv.len = (3 + nt) * n

/-- what internal edge `e` adds to entry `(o, i)` -/
noncomputable def tIntTerm (sv : TSolver) (P : FlowParams) (wb : WellBalancing) (nt : ℕ) (T : Tables) (V : BedTables) (u : Arr ℝ) (o i e : ℕ) : Num :=
  if wb = .hr then hrTTerm sv P nt T (BedTables.zcOf { V with fromFile := false }) u o i e else tEdgeTerm sv P nt T u o i e

/-- entry `(o, i)` of the flux divergence -/
noncomputable def tDivEntry (sv : TSolver) (P : FlowParams) (wb : WellBalancing) (nt : ℕ) (T : Tables) (V : BedTables) (Bs : List TBnd) (u : Arr ℝ)
    (o i : ℕ) : Num :=
  tbSum sv P nt T Bs u o i ((List.range T.internal.len).foldl (fun (a : Num) (e : ℕ) => a.add (tIntTerm sv P wb nt T V u o i e)) (some 0))

/-- entry `(o, i)` of the right-hand side -/
noncomputable def tRhsEntry (sv : TSolver) (P : FlowParams) (wb : WellBalancing) (nt : ℕ) (T : Tables) (V : BedTables) (Bs : List TBnd) (nc : ℕ)
    (dt : ℝ) (src mat u : Arr ℝ) (o i : ℕ) : Num :=
  (List.range nc).foldl (fun (a : Num) (c : ℕ) => a.add (tSrcTerm P (decide (wb ≠ .hr)) nt T V dt src mat
    (fun o i => tDivEntry sv P wb nt T V Bs u o i) u o i c)) (tDivEntry sv P wb nt T V Bs u o i)

theorem hrTTerm_congr {sv : TSolver} {P : FlowParams} {T : Tables} {nc n ne nt : ℕ} (hT : T.Valid nc n ne) {z z' : ℕ → ℝ}
    (h : ∀ c < nc, z c = z' c) (u : Arr ℝ) (o i : ℕ) {e : ℕ} (he : e < T.internal.len) :
    hrTTerm sv P nt T z u o i e = hrTTerm sv P nt T z' u o i e := by
  have hid := hT.ids e he
  unfold hrTTerm
  cases hr : T.rightOf (T.internal.val e) with
  | none => rfl
  | some r =>
    dsimp only
    have hl : T.leftOf (T.internal.val e) < nc := (hT.left _ hid).2
    have hr' : r < nc := by
      unfold Tables.rightOf at hr
      split at hr
      · cases hr
      · rename_i hne
        cases hr
        exact ((hT.right _ hid).resolve_left hne).2
    have hp : hrTPair P nt z u (T.leftOf (T.internal.val e)) r = hrTPair P nt z' u (T.leftOf (T.internal.val e)) r := by
      unfold hrTPair
      rw [h _ hl, h _ hr']
    rw [hp]

theorem applyTInteriorOf_spec {sv : TSolver} {P : FlowParams} {wb : WellBalancing} {nt : ℕ} (hnt : 3 + nt ≤ maxFieldComponents) {T : Tables}
    {V : BedTables} {Bs : List TBnd} {nc n ne : ℕ} (hT : T.Valid nc n ne)
    {u : Arr ℝ} (hu : u.len = (3 + nt) * nc) {M : TPetscMem} (hM : M.Ready wb nt T V Bs nc) {f : Arr Num} (hf : f.len = (3 + nt) * n) :
    ∃ b' f', applyTInteriorOf sv P nt T M u f = some (b', f') ∧ b'.Sized T.internal.len nt ∧ b'.HasNormals T ∧ f'.len = f.len ∧
      ∀ o i, i < 3 + nt → f'.val ((3 + nt) * o + i) = (List.range T.internal.len).foldl
        (fun (a : Num) (e : ℕ) => a.add (tIntTerm sv P wb nt T V u o i e)) (f.val ((3 + nt) * o + i)) := by
  obtain ⟨hF, hz⟩ := hM
  unfold applyTInteriorOf
  rcases hz with ⟨hw, hz⟩ | ⟨hw, zc, hz, hl, hv⟩
  · rw [hz]
    obtain ⟨b', f', a1, a2, a3, a4, a5⟩ := applyTracerInteriorB_spec (sv := sv) (P := P) hnt hT hu hF.sized hF.normals hf
    refine ⟨b', f', a1, a2, a3, a4, fun o i hi => (a5 o i hi).trans ?_⟩
    refine foldl_add_congr _ _ fun e _ => ?_
    unfold tIntTerm
    rw [if_neg hw]
  · rw [hz]
    obtain ⟨b', f', a1, a2, a3, a4, a5⟩ := applyTracerInteriorHRB_spec (sv := sv) (P := P) hnt hT hl hu hF.sized hF.normals hf
    refine ⟨b', f', a1, a2, a3, a4, fun o i hi => (a5 o i hi).trans ?_⟩
    refine foldl_add_congr _ _ fun e he => ?_
    unfold tIntTerm
    rw [if_pos hw]
    exact hrTTerm_congr hT hv u o i (List.mem_range.mp he)

theorem applyTPetsc_spec {sv : TSolver} {P : FlowParams} {wb : WellBalancing} {nt : ℕ} (hnt : 3 + nt ≤ maxFieldComponents) {T : Tables}
    {V : BedTables} {Bs : List TBnd} {nc n ne : ℕ} (hT : T.Valid nc n ne) (hV : V.Valid nc) (hB : ∀ B ∈ Bs, B.Valid ne nt)
    (hown : ∀ c < nc, T.owned.val c = true → c < n) (dt : ℝ) {u : Arr ℝ} (hu : u.len = (3 + nt) * nc) {M : TPetscMem}
    (hM : M.Ready wb nt T V Bs nc) {D : PetscVecs} (hD : D.FitsT nt n) :
    ∃ M' D' f, applyTPetsc sv P wb nt T V Bs nc n dt M D u = some (M', D', f) ∧ M'.Ready wb nt T V Bs nc ∧ D'.FitsT nt n ∧
      f.len = (3 + nt) * n ∧
      (∀ o i, i < 3 + nt → f.val ((3 + nt) * o + i) = tRhsEntry sv P wb nt T V Bs nc dt D.src D.mat u o i) ∧ D'.srcInst = D.src ∧
      (wb = .hr → D'.pv = D.pv) ∧
      (wb ≠ .hr → (∀ c < nc, ∀ c' < nc, T.owned.val c = true → T.owned.val c' = true → T.l2o.val c = T.l2o.val c' → c = c') →
        ∀ c < nc, T.owned.val c = true → ∀ i < 3 + nt,
          D'.pv.val ((3 + nt) * T.l2o.val c + i) = primEntry P (tStateAt nt u c) i) := by
  obtain ⟨b', f1, a1, a2, a3, a4, a5⟩ := applyTInteriorOf_spec (sv := sv) (P := P) hnt hT hu hM
    (f := Arr.calloc ((3 + nt) * n) (some 0)) rfl
  obtain ⟨ss', f2, b1, b2, b3, b4, b5⟩ := applyTracerBoundariesB_spec (sv := sv) (P := P) hnt hT hu hB hM.1.bnds (f := f1) a4
  have hf2 : f2.len = (3 + nt) * n := b3.trans a4
  have hdiv : ∀ o i, i < 3 + nt → f2.val ((3 + nt) * o + i) = tDivEntry sv P wb nt T V Bs u o i := by
    intro o i hi
    rw [b4 o i hi, a5 o i hi]
    rfl
  obtain ⟨s', c1, c2, c3, c4, c5, c6⟩ := applyTSourceB_spec (P := P) (decide (wb ≠ .hr)) hT hV hown dt hD.src hD.mat hf2 hu
    (s := ⟨f2, D.pv⟩) hf2 hD.pv
  refine ⟨⟨⟨b', ss'⟩, M.zc⟩, { D with pv := s'.pv, srcInst := D.src }, s'.f, ?_, ⟨⟨a2, a3, b2⟩, hM.2⟩, ⟨hD.src, hD.mat, c3⟩, c2, ?_, rfl,
    fun h => c5 (by simp [h]), fun h => c6 (by simp [h])⟩
  · unfold applyTPetsc
    rw [a1]
    show (applyTracerBoundariesB sv P nt T u Bs M.flux.bnds f1).bind _ = _
    rw [b1]
    show (applyTSourceB P (decide (wb ≠ .hr)) nt T V nc dt D.src D.mat f2 u ⟨f2, D.pv⟩).map _ = _
    rw [c1]
    rfl
  · intro o i hi
    rw [c4 o i hi]
    unfold tRhsEntry
    show List.foldl _ (f2.val ((3 + nt) * o + i)) _ = _
    rw [hdiv o i hi]
    refine foldl_add_congr _ _ fun c _ => ?_
    unfold tSrcTerm tSourceEntry tFrictionOf
    dsimp only
    rw [hdiv _ 1 (by omega), hdiv _ 2 (by omega)]

/-! ### The model that treats one edge or cell after the other -/

/-- The mesh of `Operator.lean` that the tables describe, with slopes and bed elevations (means of the vertices). -/
noncomputable def tRhsMeshOf (T : Tables) (V : BedTables) (nc : ℕ) : PMesh :=
  { meshOf T [] nc with dzdx := V.dzdx.val, dzdy := V.dzdy.val, zc := BedTables.zcOf { V with fromFile := false } }

/-- The entries of a vector of sources by owned number and component. -/
def tSrcAt (nt : ℕ) (a : Arr ℝ) (o d : ℕ) : ℝ := a.val ((3 + nt) * o + d)

theorem hrTInterior_entry (sv : TSolver) (P : FlowParams) (nt : ℕ) (T : Tables) (V : BedTables) (nc : ℕ) (u : Arr ℝ) (o i : ℕ) :
    ∀ (l : List ℕ) (f g : ℕ → ℕ → ℝ),
      (l.map fun e => (⟨T.leftOf (T.internal.val e), T.rightOf (T.internal.val e), T.elen.val (T.internal.val e),
        T.sn.val (T.internal.val e), T.cn.val (T.internal.val e)⟩ : IEdge)).foldlM
          (hrTEdge sv P nt (tRhsMeshOf T V nc) (tStateAt nt u)) f = some g →
      l.foldl (fun (a : Num) (e : ℕ) => a.add (hrTTerm sv P nt T (BedTables.zcOf { V with fromFile := false }) u o i e)) (some (f o i)) =
        some (g o i) := by
  intro l
  induction l with
  | nil => intro f g h; cases h; rfl
  | cons e l ih =>
    intro f g h
    obtain ⟨f', h1, h2⟩ := foldlM_cons_some h
    rw [List.foldl_cons, ← ih f' g h2]
    congr 1
    unfold hrTEdge at h1
    dsimp only at h1
    unfold hrTTerm
    cases hr : T.rightOf (T.internal.val e) with
    | none =>
      rw [hr] at h1
      cases h1
      exact Num.add_zero' _
    | some r =>
      rw [hr] at h1
      dsimp only at h1 ⊢
      by_cases hd : (tStateAt nt u r).q.h < P.tinyH ∧ (tStateAt nt u (T.leftOf (T.internal.val e))).q.h < P.tinyH
      · rw [if_pos hd] at h1 ⊢
        cases h1
        exact Num.add_zero' _
      · rw [if_neg hd] at h1 ⊢
        obtain ⟨F, hF, hf'⟩ := Option.map_eq_some_iff.mp h1
        replace hF : hrTFlux sv P nt (hrTPair P nt (BedTables.zcOf { V with fromFile := false }) u (T.leftOf (T.internal.val e)) r).1
          (hrTPair P nt (BedTables.zcOf { V with fromFile := false }) u (T.leftOf (T.internal.val e)) r).2
          (T.sn.val (T.internal.val e)) (T.cn.val (T.internal.val e)) = some F := hF
        rw [hF, ← hf', addOwnedT_comp, addOwnedT_comp, addOwnedT_comp, addOwnedT_comp]
        simp only [Num.add_assoc']
        rfl

theorem tracerSource_entry (P : FlowParams) (slope : Bool) (nt : ℕ) (T : Tables) (V : BedTables) (nc : ℕ) (dt : ℝ)
    (src mat u : Arr ℝ) (fd : ℕ → ℕ → ℝ) (fd' : ℕ → ℕ → Num) (hfd : ∀ o i, fd' o i = some (fd o i)) (o i : ℕ) (hi : i < 3 + nt) :
    ∀ (l : List ℕ) (f g : ℕ → ℕ → ℝ),
      l.foldlM (tracerSourceCell P slope nt (tRhsMeshOf T V nc) dt (tSrcAt nt src) mat.val fd (tStateAt nt u)) f = some g →
      l.foldl (fun (a : Num) (c : ℕ) => a.add (tSrcTerm P slope nt T V dt src mat fd' u o i c)) (some (f o i)) = some (g o i) := by
  intro l
  induction l with
  | nil => intro f g h; cases h; rfl
  | cons c l ih =>
    intro f g h
    obtain ⟨f', h1, h2⟩ := foldlM_cons_some h
    rw [List.foldl_cons, ← ih f' g h2]
    congr 1
    unfold tracerSourceCell at h1
    by_cases hw : T.owned.val c = true
    · rw [if_pos (show (tRhsMeshOf T V nc).owned c = true from hw)] at h1
      obtain ⟨t, ht, hf'⟩ := Option.map_eq_some_iff.mp h1
      have hfr : tFrictionOf P slope nt T V dt mat fd' u c = some t := by
        unfold tFrictionOf
        by_cases hh : (tStateAt nt u c).q.h ≥ P.tinyH
        · rw [if_pos hh, hfd, hfd, frictionB_some]
          exact ht
        · rw [if_neg hh]
          unfold frictionSemiImplicit at ht
          rw [if_neg hh] at ht
          exact ht
      rw [← hf', addOwnedT_comp]
      congr 1
      unfold tSrcTerm
      show recv _ _ o _ = recv _ _ o _
      congr 1
      unfold tSourceEntry
      rw [hfr]
      by_cases h0 : i = 0
      · subst h0
        rw [if_pos rfl, if_pos rfl]
        exact congrArg some (mul_one _).symm
      · rw [if_neg h0, if_neg h0]
        by_cases h1 : i = 1
        · rw [if_pos h1, if_pos h1]
          exact congrArg some (mul_one _).symm
        · rw [if_neg h1, if_neg h1]
          by_cases h2 : i = 2
          · rw [if_pos h2, if_pos h2]
            exact congrArg some (mul_one _).symm
          · rw [if_neg h2, if_neg h2, if_pos (show i - 3 < nt by omega)]
            exact congrArg some (mul_one _).symm
    · rw [if_neg (show ¬ (tRhsMeshOf T V nc).owned c = true from hw)] at h1
      cases h1
      unfold tSrcTerm recv
      rw [if_neg (fun q => hw q.1), Num.add_zero']

theorem tRhsEntry_eq {sv : TSolver} {P : FlowParams} {wb : WellBalancing} {nt : ℕ} {T : Tables} {V : BedTables} {Bs : List TBnd} {nc : ℕ} {dt : ℝ}
    {src mat u : Arr ℝ} {g : ℕ → ℕ → ℝ}
    (h : tracerRhs (decide (wb = .hr)) sv P nt (tRhsMeshOf T V nc) (tbEdgesOf nt T Bs) dt (tSrcAt nt src) mat.val (tStateAt nt u) = some g)
    (o i : ℕ) (hi : i < 3 + nt) : tRhsEntry sv P wb nt T V Bs nc dt src mat u o i = some (g o i) := by
  unfold tracerRhs at h
  obtain ⟨fd, h12, h3⟩ := Option.bind_eq_some_iff.mp h
  have hdiv : ∀ o i, tDivEntry sv P wb nt T V Bs u o i = some (fd o i) := by
    intro o i
    unfold tDivEntry
    unfold tracerDiv at h12
    by_cases hw : wb = .hr
    · rw [if_pos (by rw [hw]; rfl)] at h12
      obtain ⟨f1, h1, h2⟩ := Option.bind_eq_some_iff.mp h12
      have := hrTInterior_entry sv P nt T V nc u o i _ _ f1 h1
      rw [show (List.range T.internal.len).foldl (fun (a : Num) (e : ℕ) => a.add (tIntTerm sv P wb nt T V u o i e)) (some 0) =
        some (f1 o i) from Eq.trans (foldl_add_congr _ _ fun e _ => by unfold tIntTerm; rw [if_pos hw]) this]
      exact tracerBoundary_entry sv P nt T nc u o i Bs f1 fd h2
    · rw [if_neg (by simp [hw])] at h12
      obtain ⟨f1, h1, h2⟩ := Option.bind_eq_some_iff.mp h12
      have := tracerInterior_entry sv P nt T nc u o i _ _ f1 h1
      rw [show (List.range T.internal.len).foldl (fun (a : Num) (e : ℕ) => a.add (tIntTerm sv P wb nt T V u o i e)) (some 0) =
        some (f1 o i) from Eq.trans (foldl_add_congr _ _ fun e _ => by unfold tIntTerm; rw [if_neg hw]) this]
      exact tracerBoundary_entry sv P nt T nc u o i Bs f1 fd h2
  unfold tRhsEntry
  rw [hdiv o i]
  have hs : (!decide (wb = .hr)) = decide (wb ≠ .hr) := by simp
  rw [hs] at h3
  exact tracerSource_entry P (decide (wb ≠ .hr)) nt T V nc dt src mat u fd _ (fun o i => hdiv o i) o i hi _ fd g h3

end RDy
