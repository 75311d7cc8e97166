import Verif.Model.CeedSource
import Verif.Lemmas.CeedOpRun
import Mathlib.Tactic

/-! Lemmas about the assembled source operator of the CEED backend. -/

namespace RDy

/-- the owned cells among the first `n` -/
def SCells.ownedList (S : SCells) (n : ℕ) : List ℕ := (List.range n).filter S.owned.val

theorem ownedList_succ (S : SCells) (n : ℕ) :
    S.ownedList (n + 1) = S.ownedList n ++ if S.owned.val n = true then [n] else [] := by
  unfold SCells.ownedList
  rw [List.range_succ, List.filter_append]
  by_cases h : S.owned.val n = true
  · rw [if_pos h]; simp [h]
  · rw [if_neg h]; simp [h]

theorem ownedList_len_le (S : SCells) {a b : ℕ} (h : a ≤ b) : (S.ownedList a).length ≤ (S.ownedList b).length := by
  induction b, h using Nat.le_induction with
  | base => exact le_rfl
  | succ b _ ih =>
    rw [ownedList_succ, List.length_append]
    omega

/-- the owned cells are numbered in order: what `local_to_owned` is -/
structure SCells.Valid (S : SCells) (n : ℕ) : Prop where
  owned : S.owned.len = n
  l2o : S.l2o.len = n
  dzdx : S.dzdx.len = n
  dzdy : S.dzdy.len = n
  count : S.numOwned = (S.ownedList n).length
  number : ∀ c < n, S.owned.val c = true → S.l2o.val c = (S.ownedList c).length

theorem ownedList_getD (S : SCells) {c n : ℕ} (hc : c < n) (ho : S.owned.val c = true) :
    (S.ownedList c).length < (S.ownedList n).length ∧ (S.ownedList n).getD (S.ownedList c).length 0 = c := by
  induction n, hc using Nat.le_induction with
  | base =>
    rw [ownedList_succ, if_pos ho]
    refine ⟨by rw [List.length_append]; simp, ?_⟩
    rw [getD_concat (by omega), if_neg (by omega)]
  | succ m hm ih =>
    rw [ownedList_succ]
    refine ⟨by rw [List.length_append]; omega, ?_⟩
    rw [List.getD_eq_getElem?_getD, List.getElem?_append_left ih.1, ← List.getD_eq_getElem?_getD]
    exact ih.2

theorem ownedList_mem {S : SCells} {n c : ℕ} (h : c ∈ S.ownedList n) : c < n ∧ S.owned.val c = true := by
  unfold SCells.ownedList at h
  rw [List.mem_filter, List.mem_range] at h
  exact h

theorem ownedCellLoop_inv {σ : Type} {S : SCells} {body : σ → ℕ → ℕ → Option σ} (I : List ℕ → σ → Prop) {s : σ} (h0 : I [] s)
    (hs : ∀ l c s, c < S.owned.len → S.owned.val c = true → l = S.ownedList c →
      l.length < (S.ownedList S.owned.len).length → I l s → ∃ s', body s l.length c = some s' ∧ I (l ++ [c]) s') :
    ∃ s', ownedCellLoop S.owned body s = some s' ∧ I (S.ownedList S.owned.len) s' := by
  obtain ⟨s', h1, h2, h3⟩ := loopM_inv (step := ownedCellStep S.owned body) (n := S.owned.len) (s := (s, 0))
    (fun k p => p.2 = (S.ownedList k).length ∧ I (S.ownedList k) p.1) ⟨rfl, h0⟩ (by
      rintro k hk ⟨p, j⟩ ⟨hj, hp⟩
      dsimp only at hj hp
      subst hj
      unfold ownedCellStep
      rw [Arr.get_some hk]
      show ∃ s', (if S.owned.val k = true then _ else _) = some s' ∧ _
      by_cases hw : S.owned.val k = true
      · have hlt : (S.ownedList k).length < (S.ownedList S.owned.len).length := by
          have h5 := ownedList_len_le S (show k + 1 ≤ S.owned.len from hk)
          rw [ownedList_succ, if_pos hw, List.length_append] at h5
          exact h5
        obtain ⟨p', h6, h7⟩ := hs _ k p hk hw rfl hlt hp
        refine ⟨(p', (S.ownedList k).length + 1), ?_, ?_, ?_⟩
        · rw [if_pos hw]
          show Option.map _ (body p (S.ownedList k).length k) = _
          rw [h6]; rfl
        · rw [ownedList_succ, if_pos hw, List.length_append]; rfl
        · dsimp only
          rw [ownedList_succ, if_pos hw]; exact h7
      · refine ⟨(p, (S.ownedList k).length), ?_, ?_, ?_⟩
        · rw [if_neg hw]
        · rw [ownedList_succ, if_neg hw, List.append_nil]
        · dsimp only
          rw [ownedList_succ, if_neg hw, List.append_nil]; exact hp)
  refine ⟨s'.1, ?_, h3⟩
  unfold ownedCellLoop
  rw [h1]; rfl

/-- what the creation leaves behind -/
structure SourceReady (S : SCells) (n : ℕ) (g : Arr ℝ) (o : SOffsets) : Prop where
  len : g.len = 2 * S.numOwned
  q_len : o.q.len = S.numOwned
  c_len : o.c.len = S.numOwned
  geom : ∀ j < S.numOwned, ∀ k < 2, g.val (2 * j + k) =
    if k = 0 then S.dzdx.val ((S.ownedList n).getD j 0) else S.dzdy.val ((S.ownedList n).getD j 0)
  q : ∀ j < S.numOwned, o.q.val j = some (3 * (S.ownedList n).getD j 0)
  c : ∀ j < S.numOwned, o.c.val j = some (3 * j)

theorem createSource_spec (P : FlowParams) (m : FrictionMethod) (slope : Bool) {S : SCells} {n : ℕ} (hS : S.Valid n) :
    ∃ g o, SourceReady S n g o ∧ createSourceC P m slope S =
      some (sourceC P m slope S.numOwned g o (Arr.calloc (3 * S.numOwned) 0) (Arr.calloc (1 * S.numOwned) 0)
        (Arr.calloc (3 * S.numOwned) 0) (Arr.calloc (3 * S.numOwned) (some 0)) (Arr.calloc (3 * S.numOwned) (some 0))) := by
  have hn : S.numOwned = (S.ownedList S.owned.len).length := by rw [hS.owned]; exact hS.count
  obtain ⟨g, g1, g2, g3⟩ := ownedCellLoop_inv (S := S) (body := sGeomBody S) (s := Arr.calloc (2 * S.numOwned) 0)
    (fun l (g : Arr ℝ) => g.len = 2 * S.numOwned ∧ ∀ j < l.length, ∀ k < 2, g.val (2 * j + k) =
      (fun (c k : ℕ) => if k = 0 then S.dzdx.val c else S.dzdy.val c) (l.getD j 0) k)
    ⟨rfl, fun j hj => absurd hj (Nat.not_lt_zero _)⟩ (by
      rintro l c g hc ho - hl ⟨i1, i2⟩
      unfold sGeomBody
      rw [Arr.get_some (by rw [hS.dzdx, ← hS.owned]; exact hc), Arr.get_some (by rw [hS.dzdy, ← hS.owned]; exact hc)]
      obtain ⟨g', j1, j2, j3⟩ := putRow_spec (nd := 2) (fun k => if k = 0 then S.dzdx.val c else S.dzdy.val c) (a := g)
        (e := l.length) (n := S.numOwned) (by rw [hn]; exact hl) i1
      exact ⟨g', j1, j2.trans i1, rows_concat (fun (c k : ℕ) => if k = 0 then S.dzdx.val c else S.dzdy.val c) i2 j3⟩)
  obtain ⟨o, o1, o2, o3, o4⟩ := ownedCellLoop_inv (S := S) (body := sOffsetBody S)
    (s := (⟨Arr.calloc S.numOwned none, Arr.calloc S.numOwned none⟩ : SOffsets))
    (fun l (o : SOffsets) => o.q.len = S.numOwned ∧ o.c.len = S.numOwned ∧ ∀ j < l.length,
      o.q.val j = some (3 * l.getD j 0) ∧ o.c.val j = some (3 * j))
    ⟨rfl, rfl, fun j hj => absurd hj (Nat.not_lt_zero _)⟩ (by
      rintro l c o hc ho hlc hl ⟨i1, i2, i3⟩
      have hc' : c < n := by rw [← hS.owned]; exact hc
      unfold sOffsetBody
      rw [Arr.put_some _ (show l.length < o.q.len by rw [i1, hn]; exact hl)]
      show ∃ s', (S.l2o.get c).bind _ = some s' ∧ _
      rw [Arr.get_some (by rw [hS.l2o]; exact hc')]
      show ∃ s', Option.map _ (o.c.put l.length _) = some s' ∧ _
      rw [Arr.put_some _ (show l.length < o.c.len by rw [i2, hn]; exact hl)]
      refine ⟨_, rfl, i1, i2, ?_⟩
      intro j hj
      rw [List.length_append] at hj
      have hj' : j < l.length + 1 := hj
      rw [getD_concat hj']
      by_cases h : j < l.length
      · rw [if_pos h]
        obtain ⟨k1, k2⟩ := i3 j h
        have hne : j ≠ l.length := by omega
        exact ⟨(Function.update_of_ne hne _ _).trans k1, (Function.update_of_ne hne _ _).trans k2⟩
      · obtain rfl : j = l.length := by omega
        rw [if_neg h]
        refine ⟨(Function.update_self _ _ _).trans (by rw [Nat.mul_comm]), (Function.update_self _ _ _).trans ?_⟩
        rw [hS.number c hc' ho, ← hlc, Nat.mul_comm])
  refine ⟨g, o, ⟨g2, o2, o3, ?_, ?_, ?_⟩, ?_⟩
  · intro j hj k hk
    have h := g3 j (by rw [← hn]; exact hj) k hk
    rw [hS.owned] at h
    exact h
  · intro j hj
    have h := (o4 j (by rw [← hn]; exact hj)).1
    rw [hS.owned] at h
    exact h
  · intro j hj
    exact (o4 j (by rw [← hn]; exact hj)).2
  · unfold createSourceC
    rw [g1]
    show Option.map _ (ownedCellLoop S.owned (sOffsetBody S) _) = _
    rw [o1]
    rfl

/-- the flow row of a vector -/
def fluxAt (a : Arr ℝ) (i : ℕ) : Flux := ⟨a.val (3 * i), a.val (3 * i + 1), a.val (3 * i + 2)⟩

/-- the right-hand side of the `j`-th owned cell, which is `c` -/
noncomputable def srcCell (P : FlowParams) (m : FrictionMethod) (slope : Bool) (S : SCells) (a : SCall) (j c : ℕ) : Option Flux :=
  cellRhsCeed P m slope (S.dzdx.val c) (S.dzdy.val c) a.dt (a.mat.val j) (fluxAt a.ext j) (fluxAt a.fd j) (stateAt a.u c)

/-- what the Q-function gives for the `j`-th owned cell, which is `c` -/
noncomputable def srcOut (P : FlowParams) (m : FrictionMethod) (slope : Bool) (S : SCells) (a : SCall) (j c : ℕ) : List (ℕ → Num) :=
  [fun k => (srcCell P m slope S a j c).map fun f => f.comp k,
   fun k => (velocitiesCeed P.tinyH P.hAnuga (stateAt a.u c)).map fun s => if k = 0 then s.h else if k = 1 then s.u else s.v,
   fun k => some (a.ext.val (3 * j + k))]

/-- sizes of the arrays given -/
structure SCall.Fits (a : SCall) (S : SCells) (n : ℕ) : Prop where
  u : a.u.len = 3 * n
  ext : a.ext.len = 3 * S.numOwned
  mat : a.mat.len = 1 * S.numOwned
  fd : a.fd.len = 3 * S.numOwned

theorem source_point (P : FlowParams) (m : FrictionMethod) (slope : Bool) {S : SCells} {n : ℕ} (hS : S.Valid n) {g : Arr ℝ} {o : SOffsets}
    (hR : SourceReady S n g o) {a : SCall} (ha : a.Fits S n) (pv si : Arr Num) {j : ℕ} (hj : j < S.numOwned) :
    (sourceC P m slope S.numOwned g o a.ext a.mat a.fd pv si).point a.dt a.u j =
      some (srcOut P m slope S a j ((S.ownedList n).getD j 0)) := by
  have hc := (ownedList_mem (getD_mem' (l := S.ownedList n) (by rw [← hS.count]; exact hj))).1
  have hu := ha.u
  unfold COp.point sourceC gatherAll
  dsimp only
  rw [gather_strided hj hR.len]
  unfold gatherAll
  rw [gather_strided hj ha.ext]
  unfold gatherAll
  rw [gather_strided hj ha.mat]
  unfold gatherAll
  rw [gather_strided hj ha.fd]
  unfold gatherAll
  rw [gather_offsets (v := none) hj hR.q_len (hR.q j hj) (show _ ≤ a.u.len by omega)]
  unfold gatherAll
  have g0 : g.val (2 * j + 0) = _ := hR.geom j hj 0 (by omega)
  have g1 : g.val (2 * j + 1) = _ := hR.geom j hj 1 (by omega)
  rw [if_pos rfl] at g0
  rw [if_neg (by omega)] at g1
  generalize (S.ownedList n).getD j 0 = c at *
  show sourceKernel P m slope a.dt [fun k => g.val (2 * j + k), fun k => a.ext.val (3 * j + k), fun k => a.mat.val (1 * j + k),
    fun k => a.fd.val (3 * j + k), fun k => a.u.val (3 * c + k)] = _
  unfold sourceKernel
  simp only [g0, g1]
  unfold srcOut srcCell fluxAt
  rw [show a.mat.val (1 * j + 0) = a.mat.val j by rw [Nat.one_mul, Nat.add_zero]]
  rfl

theorem Num.zero_add' (a : Num) : Num.add (some 0) a = a := by
  rw [Num.add_comm', Num.add_zero']

/-- one evaluation, from any contents of the vectors of the outputs -/
theorem sourceEvaluation_spec (P : FlowParams) (m : FrictionMethod) (slope : Bool) {S : SCells} {n : ℕ} (hS : S.Valid n) {g : Arr ℝ}
    {o : SOffsets} (hR : SourceReady S n g o) {a : SCall} (ha : a.Fits S n) (x y z : Arr ℝ) {pv si : Arr Num}
    (hp : pv.len = 3 * S.numOwned) (hs : si.len = 3 * S.numOwned) :
    ∃ pv' si' rhs, sourceEvaluationC S.numOwned (sourceC P m slope S.numOwned g o x y z pv si) a =
        some (sourceC P m slope S.numOwned g o a.ext a.mat a.fd pv' si', rhs) ∧
      pv'.len = 3 * S.numOwned ∧ si'.len = 3 * S.numOwned ∧ rhs.len = 3 * S.numOwned ∧
      ∀ j < S.numOwned, ∀ k < 3,
        rhs.val (3 * j + k) = ((srcCell P m slope S a j ((S.ownedList n).getD j 0)).map fun f => f.comp k) ∧
        pv'.val (3 * j + k) = ((velocitiesCeed P.tinyH P.hAnuga (stateAt a.u ((S.ownedList n).getD j 0))).map fun s =>
          if k = 0 then s.h else if k = 1 then s.u else s.v) ∧
        si'.val (3 * j + k) = some (a.ext.val (3 * j + k)) := by
  obtain ⟨E, hE1, hE2⟩ := points_some
    (op := sourceC P m slope S.numOwned g o a.ext a.mat a.fd (Arr.calloc pv.len (some 0)) (Arr.calloc si.len (some 0))) (dt := a.dt)
    (u := a.u) (E := fun j => srcOut P m slope S a j ((S.ownedList n).getD j 0))
    (fun j hj => source_point P m slope hS hR ha _ _ hj)
  replace hE2 : ∀ j < S.numOwned, E j = srcOut P m slope S a j ((S.ownedList n).getD j 0) := hE2
  obtain ⟨r1, a1, a2, a3⟩ := addAll_spec (o := ⟨.offsets o.c, 3, none⟩) (elems := S.numOwned) (f := 0) (n := S.numOwned) (E := E)
    (fun j => j) (fun j k => (srcCell P m slope S a j ((S.ownedList n).getD j 0)).map fun f => f.comp k)
    (a := Arr.calloc (3 * S.numOwned) (some 0)) (fun j hj => base_offsets hj hR.c_len (hR.c j hj)) (fun j hj => hj)
    (fun j hj k => by rw [hE2 j hj]; rfl) rfl
  obtain ⟨r2, b1, b2, b3⟩ := addAll_spec (o := ⟨.strided 3, 3, some (Arr.calloc pv.len (some 0))⟩) (elems := S.numOwned) (f := 1)
    (n := S.numOwned) (E := E) (fun j => j)
    (fun j k => (velocitiesCeed P.tinyH P.hAnuga (stateAt a.u ((S.ownedList n).getD j 0))).map fun s =>
          if k = 0 then s.h else if k = 1 then s.u else s.v)
    (a := Arr.calloc pv.len (some 0)) (fun j hj => rfl) (fun j hj => hj)
    (fun j hj k => by rw [hE2 j hj]; rfl) hp
  obtain ⟨r3, c1, c2, c3⟩ := addAll_spec (o := ⟨.strided 3, 3, some (Arr.calloc si.len (some 0))⟩) (elems := S.numOwned) (f := 2)
    (n := S.numOwned) (E := E) (fun j => j) (fun j k => some (a.ext.val (3 * j + k)))
    (a := Arr.calloc si.len (some 0)) (fun j hj => rfl) (fun j hj => hj)
    (fun j hj k => by rw [hE2 j hj]; rfl) hs
  refine ⟨r2, r3, r1, ?_, b2.trans hp, c2.trans hs, a2, ?_⟩
  · show (sourceC P m slope S.numOwned g o a.ext a.mat a.fd (Arr.calloc pv.len (some 0)) (Arr.calloc si.len (some 0))).applyAdd a.dt a.u
      (Arr.calloc (3 * S.numOwned) (some 0)) = _
    unfold COp.applyAdd
    rw [hE1]
    show Option.map _ (addOutputs S.numOwned E 0 _ _) = _
    unfold sourceC addOutputs
    dsimp only
    rw [a1]
    unfold addOutputs
    dsimp only [Option.bind]
    rw [b1]
    unfold addOutputs
    dsimp only [Option.bind]
    rw [c1]
    rfl
  · intro j hj k hk
    have h1 := a3 j k hk
    have h2 := b3 j k hk
    have h3 := c3 j k hk
    dsimp only at h1 h2 h3
    rw [h1, h2, h3]
    refine ⟨(foldl_own _ _ _ _).trans ?_, (foldl_own _ _ _ _).trans ?_, (foldl_own _ _ _ _).trans ?_⟩
    all_goals
      rw [if_pos hj]
      exact Num.zero_add' _

/-- the operator after some evaluations -/
def SourceState (P : FlowParams) (m : FrictionMethod) (slope : Bool) (S : SCells) (n : ℕ) (op : COp) : Prop :=
  ∃ g o x y z pv si, SourceReady S n g o ∧ pv.len = 3 * S.numOwned ∧ si.len = 3 * S.numOwned ∧
    op = sourceC P m slope S.numOwned g o x y z pv si

theorem createSource_state (P : FlowParams) (m : FrictionMethod) (slope : Bool) {S : SCells} {n : ℕ} (hS : S.Valid n) :
    ∃ op, createSourceC P m slope S = some op ∧ SourceState P m slope S n op := by
  obtain ⟨g, o, h1, h2⟩ := createSource_spec P m slope hS
  exact ⟨_, h2, g, o, _, _, _, _, _, h1, rfl, rfl, rfl⟩

theorem sourceEvaluations_state (P : FlowParams) (m : FrictionMethod) (slope : Bool) {S : SCells} {n : ℕ} (hS : S.Valid n) :
    ∀ (l : List SCall) (op : COp), (∀ a ∈ l, a.Fits S n) → SourceState P m slope S n op →
      ∃ op', sourceEvaluationsC S.numOwned op l = some op' ∧ SourceState P m slope S n op' := by
  intro l
  induction l with
  | nil => intro op _ h; exact ⟨op, rfl, h⟩
  | cons a l ih =>
    rintro op hl ⟨g, o, x, y, z, pv, si, h1, h2, h3, rfl⟩
    obtain ⟨pv', si', rhs, i1, i2, i3, -, -⟩ := sourceEvaluation_spec P m slope hS h1 (hl a List.mem_cons_self) x y z h2 h3
    obtain ⟨op', k1, k2⟩ := ih (sourceC P m slope S.numOwned g o a.ext a.mat a.fd pv' si')
      (fun b hb => hl b (List.mem_cons_of_mem _ hb)) ⟨g, o, _, _, _, _, _, h1, i2, i3, rfl⟩
    refine ⟨op', ?_, k2⟩
    unfold sourceEvaluationsC
    rw [i1]
    exact k1

end RDy
