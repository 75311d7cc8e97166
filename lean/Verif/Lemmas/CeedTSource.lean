import Verif.Model.CeedTSource
import Verif.Lemmas.CeedSource
import Verif.Lemmas.CeedTOp
import Mathlib.Tactic

/-! Lemmas about the assembled source operator of the CEED backend in runs with tracers. -/

namespace RDy

/-- what the creation leaves behind -/
structure SourceReadyT (nt : ℕ) (S : SCells) (n : ℕ) (g : Arr ℝ) (o : SOffsets) : Prop where
  len : g.len = 2 * S.numOwned
  q_len : o.q.len = S.numOwned
  c_len : o.c.len = S.numOwned
  geom : ∀ j < S.numOwned, ∀ k < 2, g.val (2 * j + k) =
    if k = 0 then S.dzdx.val ((S.ownedList n).getD j 0) else S.dzdy.val ((S.ownedList n).getD j 0)
  q : ∀ j < S.numOwned, o.q.val j = some ((3 + nt) * (S.ownedList n).getD j 0)
  c : ∀ j < S.numOwned, o.c.val j = some ((3 + nt) * j)

theorem createSourceT_spec (P : FlowParams) (fr slope : Bool) (nt : ℕ) {S : SCells} {n : ℕ} (hS : S.Valid n) :
    ∃ g o, SourceReadyT nt S n g o ∧ createSourceT P fr slope nt S =
      some (sourceT P fr slope nt S.numOwned g o (Arr.calloc ((3 + nt) * S.numOwned) 0) (Arr.calloc (1 * S.numOwned) 0)
        (Arr.calloc ((3 + nt) * S.numOwned) 0) (Arr.calloc ((3 + nt) * S.numOwned) (some 0))
        (Arr.calloc ((3 + nt) * S.numOwned) (some 0))) := by
  have hn : S.numOwned = (S.ownedList S.owned.len).length := by rw [hS.owned]; exact hS.count
  obtain ⟨g, g1, g2, g3⟩ := ownedCellLoop_inv (S := S) (body := sGeomBody S) (s := Arr.calloc (2 * S.numOwned) 0)
    (fun l (g : Arr ℝ) => g.len = 2 * S.numOwned ∧ ∀ j < l.length, ∀ k < 2, g.val (2 * j + k) =
      (fun (c k : ℕ) => if k = 0 then S.dzdx.val c else S.dzdy.val c) (l.getD j 0) k)
    ⟨rfl, fun j hj => absurd hj (Nat.not_lt_zero _)⟩ (by
      rintro l c g hc ho - hl ⟨i1, i2⟩
      unfold sGeomBody
      rw [Arr.get_some (by rw [hS.dzdx, ← hS.owned]; exact hc), Arr.get_some (by rw [hS.dzdy, ← hS.owned]; exact hc)]
      obtain ⟨g', j1, j2, j3⟩ := putRow_spec (nd := 2) (fun k => if k = 0 then S.dzdx.val c else S.dzdy.val c) (a := g)
        (e := l.length) (n := S.numOwned) (by rw [hn]; exact hl) i1
      exact ⟨g', j1, j2.trans i1, rows_concat (fun (c k : ℕ) => if k = 0 then S.dzdx.val c else S.dzdy.val c) i2 j3⟩)
  obtain ⟨o, o1, o2, o3, o4⟩ := ownedCellLoop_inv (S := S) (body := tsOffsetBody (3 + nt) S)
    (s := (⟨Arr.calloc S.numOwned none, Arr.calloc S.numOwned none⟩ : SOffsets))
    (fun l (o : SOffsets) => o.q.len = S.numOwned ∧ o.c.len = S.numOwned ∧ ∀ j < l.length,
      o.q.val j = some ((3 + nt) * l.getD j 0) ∧ o.c.val j = some ((3 + nt) * j))
    ⟨rfl, rfl, fun j hj => absurd hj (Nat.not_lt_zero _)⟩ (by
      rintro l c o hc ho hlc hl ⟨i1, i2, i3⟩
      have hc' : c < n := by rw [← hS.owned]; exact hc
      unfold tsOffsetBody
      rw [Arr.put_some _ (show l.length < o.q.len by rw [i1, hn]; exact hl)]
      show ∃ s', (S.l2o.get c).bind _ = some s' ∧ _
      rw [Arr.get_some (by rw [hS.l2o]; exact hc')]
      show ∃ s', Option.map _ (o.c.put l.length _) = some s' ∧ _
      rw [Arr.put_some _ (show l.length < o.c.len by rw [i2, hn]; exact hl)]
      refine ⟨_, rfl, i1, i2, ?_⟩
      intro j hj
      rw [List.length_append] at hj
      have hj' : j < l.length + 1 := hj
      rw [getD_concat hj']
      by_cases h : j < l.length
      · rw [if_pos h]
        obtain ⟨k1, k2⟩ := i3 j h
        have hne : j ≠ l.length := by omega
        exact ⟨(Function.update_of_ne hne _ _).trans k1, (Function.update_of_ne hne _ _).trans k2⟩
      · obtain rfl : j = l.length := by omega
        rw [if_neg h]
        refine ⟨(Function.update_self _ _ _).trans (by rw [Nat.mul_comm]), (Function.update_self _ _ _).trans ?_⟩
        rw [hS.number c hc' ho, ← hlc, Nat.mul_comm])
  refine ⟨g, o, ⟨g2, o2, o3, ?_, ?_, ?_⟩, ?_⟩
  · intro j hj k hk
    have h := g3 j (by rw [← hn]; exact hj) k hk
    rw [hS.owned] at h
    exact h
  · intro j hj
    have h := (o4 j (by rw [← hn]; exact hj)).1
    rw [hS.owned] at h
    exact h
  · intro j hj
    exact (o4 j (by rw [← hn]; exact hj)).2
  · unfold createSourceT
    rw [g1]
    show Option.map _ (ownedCellLoop S.owned (tsOffsetBody (3 + nt) S) _) = _
    rw [o1]
    rfl

/-- row `i` of a vector with `3 + nt` components -/
def rowAt (nt : ℕ) (a : Arr ℝ) (i : ℕ) : ℕ → ℝ := fun k => a.val ((3 + nt) * i + k)

/-- the right-hand side of the `j`-th owned cell, which is `c` -/
noncomputable def srcCellT (P : FlowParams) (fr slope : Bool) (nt : ℕ) (S : SCells) (a : SCall) (j c : ℕ) : Option (ℕ → ℝ) :=
  cellTSource P fr slope nt (S.dzdx.val c) (S.dzdy.val c) a.dt (a.mat.val j) (rowAt nt a.ext j) (rowAt nt a.fd j) (tStateAt nt a.u c)

/-- what the Q-function gives for the `j`-th owned cell, which is `c` -/
noncomputable def srcOutT (P : FlowParams) (fr slope : Bool) (nt : ℕ) (S : SCells) (a : SCall) (j c : ℕ) : List (ℕ → Num) :=
  [fun k => (srcCellT P fr slope nt S a j c).map fun f => f k,
   fun k => tracerPrim P (tStateAt nt a.u c) k,
   fun k => some (a.ext.val ((3 + nt) * j + k))]

/-- sizes of the arrays given -/
structure SCall.FitsT (a : SCall) (nt : ℕ) (S : SCells) (n : ℕ) : Prop where
  u : a.u.len = (3 + nt) * n
  ext : a.ext.len = (3 + nt) * S.numOwned
  mat : a.mat.len = 1 * S.numOwned
  fd : a.fd.len = (3 + nt) * S.numOwned

theorem source_pointT (P : FlowParams) (fr slope : Bool) {nt : ℕ} (hnt : nt ≤ maxSedimentClasses) {S : SCells} {n : ℕ} (hS : S.Valid n)
    {g : Arr ℝ} {o : SOffsets} (hR : SourceReadyT nt S n g o) {a : SCall} (ha : a.FitsT nt S n) (pv si : Arr Num) {j : ℕ}
    (hj : j < S.numOwned) :
    (sourceT P fr slope nt S.numOwned g o a.ext a.mat a.fd pv si).point a.dt a.u j =
      some (srcOutT P fr slope nt S a j ((S.ownedList n).getD j 0)) := by
  have hc := (ownedList_mem (getD_mem' (l := S.ownedList n) (by rw [← hS.count]; exact hj))).1
  have hfl := flat_le (D := 3 + nt) hc
  have hu := ha.u
  unfold COp.point sourceT gatherAll
  dsimp only
  rw [gather_strided hj hR.len]
  unfold gatherAll
  rw [gather_strided hj ha.ext]
  unfold gatherAll
  rw [gather_strided hj ha.mat]
  unfold gatherAll
  rw [gather_strided hj ha.fd]
  unfold gatherAll
  rw [gather_offsets (v := none) hj hR.q_len (hR.q j hj) (show _ ≤ a.u.len by omega)]
  unfold gatherAll
  have g0 : g.val (2 * j + 0) = _ := hR.geom j hj 0 (by omega)
  have g1 : g.val (2 * j + 1) = _ := hR.geom j hj 1 (by omega)
  rw [if_pos rfl] at g0
  rw [if_neg (by omega)] at g1
  generalize (S.ownedList n).getD j 0 = c at *
  show tracerSourceKernel P fr slope nt a.dt [fun k => g.val (2 * j + k), fun k => a.ext.val ((3 + nt) * j + k),
    fun k => a.mat.val (1 * j + k), fun k => a.fd.val ((3 + nt) * j + k), fun k => a.u.val ((3 + nt) * c + k)] = _
  unfold tracerSourceKernel
  dsimp only
  rw [if_pos hnt]
  simp only [g0, g1, tStateOf_at]
  unfold srcOutT srcCellT rowAt
  rw [show a.mat.val (1 * j + 0) = a.mat.val j by rw [Nat.one_mul, Nat.add_zero]]

/-- one evaluation, from any contents of the vectors of the outputs -/
theorem sourceEvaluationT_spec (P : FlowParams) (fr slope : Bool) {nt : ℕ} (hnt : nt ≤ maxSedimentClasses) {S : SCells} {n : ℕ}
    (hS : S.Valid n) {g : Arr ℝ} {o : SOffsets} (hR : SourceReadyT nt S n g o) {a : SCall} (ha : a.FitsT nt S n) (x y z : Arr ℝ)
    {pv si : Arr Num} (hp : pv.len = (3 + nt) * S.numOwned) (hs : si.len = (3 + nt) * S.numOwned) :
    ∃ pv' si' rhs, sourceEvaluationT nt S.numOwned (sourceT P fr slope nt S.numOwned g o x y z pv si) a =
        some (sourceT P fr slope nt S.numOwned g o a.ext a.mat a.fd pv' si', rhs) ∧
      pv'.len = (3 + nt) * S.numOwned ∧ si'.len = (3 + nt) * S.numOwned ∧ rhs.len = (3 + nt) * S.numOwned ∧
      ∀ j < S.numOwned, ∀ k < 3 + nt,
        rhs.val ((3 + nt) * j + k) = ((srcCellT P fr slope nt S a j ((S.ownedList n).getD j 0)).map fun f => f k) ∧
        pv'.val ((3 + nt) * j + k) = tracerPrim P (tStateAt nt a.u ((S.ownedList n).getD j 0)) k ∧
        si'.val ((3 + nt) * j + k) = some (a.ext.val ((3 + nt) * j + k)) := by
  obtain ⟨E, hE1, hE2⟩ := points_some
    (op := sourceT P fr slope nt S.numOwned g o a.ext a.mat a.fd (Arr.calloc pv.len (some 0)) (Arr.calloc si.len (some 0))) (dt := a.dt)
    (u := a.u) (E := fun j => srcOutT P fr slope nt S a j ((S.ownedList n).getD j 0))
    (fun j hj => source_pointT P fr slope hnt hS hR ha _ _ hj)
  replace hE2 : ∀ j < S.numOwned, E j = srcOutT P fr slope nt S a j ((S.ownedList n).getD j 0) := hE2
  obtain ⟨r1, a1, a2, a3⟩ := addAll_spec (o := ⟨.offsets o.c, 3 + nt, none⟩) (elems := S.numOwned) (f := 0) (n := S.numOwned) (E := E)
    (fun j => j) (fun j k => (srcCellT P fr slope nt S a j ((S.ownedList n).getD j 0)).map fun f => f k)
    (a := Arr.calloc ((3 + nt) * S.numOwned) (some 0)) (fun j hj => base_offsets hj hR.c_len (hR.c j hj)) (fun j hj => hj)
    (fun j hj k => by rw [hE2 j hj]; rfl) rfl
  obtain ⟨r2, b1, b2, b3⟩ := addAll_spec (o := ⟨.strided (3 + nt), 3 + nt, some (Arr.calloc pv.len (some 0))⟩) (elems := S.numOwned) (f := 1)
    (n := S.numOwned) (E := E) (fun j => j) (fun j k => tracerPrim P (tStateAt nt a.u ((S.ownedList n).getD j 0)) k)
    (a := Arr.calloc pv.len (some 0)) (fun j hj => rfl) (fun j hj => hj)
    (fun j hj k => by rw [hE2 j hj]; rfl) hp
  obtain ⟨r3, c1, c2, c3⟩ := addAll_spec (o := ⟨.strided (3 + nt), 3 + nt, some (Arr.calloc si.len (some 0))⟩) (elems := S.numOwned) (f := 2)
    (n := S.numOwned) (E := E) (fun j => j) (fun j k => some (a.ext.val ((3 + nt) * j + k)))
    (a := Arr.calloc si.len (some 0)) (fun j hj => rfl) (fun j hj => hj)
    (fun j hj k => by rw [hE2 j hj]; rfl) hs
  refine ⟨r2, r3, r1, ?_, b2.trans hp, c2.trans hs, a2, ?_⟩
  · show (sourceT P fr slope nt S.numOwned g o a.ext a.mat a.fd (Arr.calloc pv.len (some 0)) (Arr.calloc si.len (some 0))).applyAdd a.dt a.u
      (Arr.calloc ((3 + nt) * S.numOwned) (some 0)) = _
    unfold COp.applyAdd
    rw [hE1]
    show Option.map _ (addOutputs S.numOwned E 0 _ _) = _
    unfold sourceT addOutputs
    dsimp only
    rw [a1]
    unfold addOutputs
    dsimp only [Option.bind]
    rw [b1]
    unfold addOutputs
    dsimp only [Option.bind]
    rw [c1]
    rfl
  · intro j hj k hk
    have h1 := a3 j k hk
    have h2 := b3 j k hk
    have h3 := c3 j k hk
    dsimp only at h1 h2 h3
    rw [h1, h2, h3]
    refine ⟨(foldl_own _ _ _ _).trans ?_, (foldl_own _ _ _ _).trans ?_, (foldl_own _ _ _ _).trans ?_⟩
    all_goals
      rw [if_pos hj]
      exact Num.zero_add' _

/-- the operator after some evaluations -/
def SourceStateT (P : FlowParams) (fr slope : Bool) (nt : ℕ) (S : SCells) (n : ℕ) (op : COp) : Prop :=
  ∃ g o x y z pv si, SourceReadyT nt S n g o ∧ pv.len = (3 + nt) * S.numOwned ∧ si.len = (3 + nt) * S.numOwned ∧
    op = sourceT P fr slope nt S.numOwned g o x y z pv si

theorem createSourceT_state (P : FlowParams) (fr slope : Bool) (nt : ℕ) {S : SCells} {n : ℕ} (hS : S.Valid n) :
    ∃ op, createSourceT P fr slope nt S = some op ∧ SourceStateT P fr slope nt S n op := by
  obtain ⟨g, o, h1, h2⟩ := createSourceT_spec P fr slope nt hS
  exact ⟨_, h2, g, o, _, _, _, _, _, h1, rfl, rfl, rfl⟩

theorem sourceEvaluationsT_state (P : FlowParams) (fr slope : Bool) {nt : ℕ} (hnt : nt ≤ maxSedimentClasses) {S : SCells} {n : ℕ}
    (hS : S.Valid n) : ∀ (l : List SCall) (op : COp), (∀ a ∈ l, a.FitsT nt S n) → SourceStateT P fr slope nt S n op →
      ∃ op', sourceEvaluationsT nt S.numOwned op l = some op' ∧ SourceStateT P fr slope nt S n op' := by
  intro l
  induction l with
  | nil => intro op _ h; exact ⟨op, rfl, h⟩
  | cons a l ih =>
    rintro op hl ⟨g, o, x, y, z, pv, si, h1, h2, h3, rfl⟩
    obtain ⟨pv', si', rhs, i1, i2, i3, -, -⟩ := sourceEvaluationT_spec P fr slope hnt hS h1 (hl a List.mem_cons_self) x y z h2 h3
    obtain ⟨op', k1, k2⟩ := ih (sourceT P fr slope nt S.numOwned g o a.ext a.mat a.fd pv' si')
      (fun b hb => hl b (List.mem_cons_of_mem _ hb)) ⟨g, o, _, _, _, _, _, h1, i2, i3, rfl⟩
    refine ⟨op', ?_, k2⟩
    unfold sourceEvaluationsT
    rw [i1]
    exact k1

theorem source_point_many (P : FlowParams) (fr slope : Bool) {nt : ℕ} (hnt : ¬ nt ≤ maxSedimentClasses) (N : ℕ) (g : Arr ℝ) (o : SOffsets)
    (x y z : Arr ℝ) (pv si : Arr Num) (dt : ℝ) (u : Arr ℝ) (j : ℕ) : (sourceT P fr slope nt N g o x y z pv si).point dt u j = none := by
  unfold COp.point
  cases hg : gatherAll u j (sourceT P fr slope nt N g o x y z pv si).ins with
  | none => rfl
  | some l =>
    show tracerSourceKernel P fr slope nt dt l = none
    unfold tracerSourceKernel
    split
    · exact if_neg hnt
    · rfl

end RDy
