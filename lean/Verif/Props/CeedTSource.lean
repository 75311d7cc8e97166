import Verif.Lemmas.CeedTSource
import Verif.Props.CeedSource
import Verif.Props.CeedTOp
import Verif.Props.CeedTracer
import Mathlib.Tactic

/-!
# The source operator of the CEED backend in runs with sediment, as it is put together (C117)

`createSourceT` builds the operator, `sourceEvaluationT` is the part of the right-hand side that adds the sources, `applyCeedT` the whole right-hand side on one
process. `nt` is the number of tracers; `fr` says whether the friction method is the semi-implicit one (otherwise `arkimex`), `slope` whether the bed slope is a source (it is not with
hydrostatic reconstruction).
-/

namespace RDy

/-! ### Specification -/

/-- Specification: the rate of bed friction in a wet cell, `g n² h^(-1/3) |v| / h`. -/
noncomputable def frictionRate (g n : ℝ) (q : Cons) : ℝ := g * n ^ 2 * q.h ^ (-(1 : ℝ) / 3) * √((q.hu / q.h) ^ 2 + (q.hv / q.h) ^ 2) / q.h

/-- Specification: the bed shear stress in a wet cell. -/
noncomputable def bedShear (g n : ℝ) (q : Cons) : ℝ := 500 * (g * n ^ 2 * q.h ^ (-(1 : ℝ) / 3)) * ((q.hu / q.h) ^ 2 + (q.hv / q.h) ^ 2)

/-- Specification: erosion minus deposition of a class with amount `hc` in a wet cell. -/
noncomputable def netErosion (g n : ℝ) (q : Cons) (hc : ℝ) : ℝ :=
  0.001 * (bedShear g n q - 0.1) / 0.1 - 0.01 * (hc / q.h) * (1 - bedShear g n q / 1000)

/-- Specification: the gravity term of component `d` on a bed with slope `(dzdx, dzdy)`. -/
noncomputable def slopeTerm (g dzdx dzdy h : ℝ) (d : ℕ) : ℝ := if d = 1 then g * h * dzdx else if d = 2 then g * h * dzdy else 0

/-- Specification: the friction term of component `d`, from the flux divergence `F` and the gravity term `b`. -/
noncomputable def frictionTerm (g n dt : ℝ) (q : Cons) (F b : ℕ → ℝ) (d : ℕ) : ℝ :=
  if d = 1 then (q.hu + dt * (F 1 - b 1)) * (frictionRate g n q / (1 + dt * frictionRate g n q))
  else if d = 2 then (q.hv + dt * (F 2 - b 2)) * (frictionRate g n q / (1 + dt * frictionRate g n q))
  else 0

/-- Specification: the right-hand side of component `d`: flux divergence, external source and gravity; with semi-implicit friction in a wet cell also friction, and
erosion minus deposition for the tracers. -/
noncomputable def tRhsOf (P : FlowParams) (fr slope : Bool) (dzdx dzdy dt n : ℝ) (src F : ℕ → ℝ) (s : TCons) (d : ℕ) : ℝ :=
  F d + src d - (if slope then slopeTerm P.g dzdx dzdy s.q.h d else 0) +
    if fr = true ∧ s.q.h > P.tinyH then
      (if d < 3 then -frictionTerm P.g n dt s.q F (fun d => if slope then slopeTerm P.g dzdx dzdy s.q.h d else 0) d
        else netErosion P.g n s.q (s.hc (d - 3)))
    else 0

/-- Specification: depth, regularised velocities, concentrations; the latter 0 in a dry cell. -/
noncomputable def tPrimOf (P : FlowParams) (s : TCons) (k : ℕ) : ℝ :=
  if k = 0 then s.q.h
  else if s.q.h > P.tinyH then
    (if k = 1 then s.q.hu * s.q.h / (s.q.h ^ 2 + P.hAnuga ^ 2)
      else if k = 2 then s.q.hv * s.q.h / (s.q.h ^ 2 + P.hAnuga ^ 2) else s.hc (k - 3) / s.q.h)
  else 0

/-! ### One cell -/

private theorem bed_eq (P : FlowParams) (slope : Bool) (a b h : ℝ) :
    (bedTerm P slope a b h).1 = (if slope then slopeTerm P.g a b h 1 else 0) ∧
      (bedTerm P slope a b h).2 = (if slope then slopeTerm P.g a b h 2 else 0) := by
  unfold bedTerm slopeTerm
  cases slope
  · exact ⟨rfl, rfl⟩
  · constructor <;> simp <;> ring

private theorem shear_eq (P : FlowParams) (n : ℝ) (q : Cons) (hc : ℝ) : erosionDeposition P.g n q hc = netErosion P.g n q hc := by
  unfold erosionDeposition netErosion bedShear
  ring

/-- what the Q-function computes for a cell is the specification -/
theorem cellTSource_eq (P : FlowParams) (fr slope : Bool) (nt : ℕ) (dzdx dzdy : ℝ) {dt : ℝ} (n : ℝ) (src F : ℕ → ℝ) (s : TCons)
    (hg : 0 ≤ P.g) (ht : 0 ≤ P.tinyH) (hdt : 0 ≤ dt) :
    ∃ f, cellTSource P fr slope nt dzdx dzdy dt n src F s = some f ∧
      ∀ d < 3 + nt, f d = tRhsOf P fr slope dzdx dzdy dt n src F s d := by
  obtain ⟨b1, b2⟩ := bed_eq P slope dzdx dzdy s.q.h
  have hst : ∀ d, 3 ≤ d → (if slope then slopeTerm P.g dzdx dzdy s.q.h d else 0) = 0 := by
    intro d hd
    unfold slopeTerm
    rw [if_neg (by omega : ¬ d = 1), if_neg (by omega : ¬ d = 2), ite_self]
  have hs0 : (if slope then slopeTerm P.g dzdx dzdy s.q.h 0 else 0) = 0 := by
    unfold slopeTerm
    simp
  unfold cellTSource
  cases fr with
  | false =>
    rw [if_neg (by decide)]
    refine ⟨_, rfl, fun d hd => ?_⟩
    unfold tRhsOf
    rw [if_neg (c := false = true ∧ s.q.h > P.tinyH) (by simp)]
    by_cases h1 : d = 1
    · subst h1; rw [if_pos rfl, b1]; ring
    rw [if_neg h1]
    by_cases h2 : d = 2
    · subst h2; rw [if_pos rfl, b2]; ring
    rw [if_neg h2, if_pos (by omega)]
    by_cases h0 : d = 0
    · subst h0; rw [hs0]; ring
    · rw [hst d (by omega)]; ring
  | true =>
    rw [if_pos rfl]
    unfold cellTRhsCeed frictionTCeed
    by_cases hw : s.q.h > P.tinyH
    · have hpos : 0 < s.q.h := lt_of_le_of_lt ht hw
      have hr : P.g * (n * n) * s.q.h ^ (-(1 : ℝ) / 3) * √(s.q.hu / s.q.h * (s.q.hu / s.q.h) + s.q.hv / s.q.h * (s.q.hv / s.q.h)) / s.q.h =
          frictionRate P.g n s.q := by
        unfold frictionRate
        rw [pow_two, pow_two, pow_two]
      have hr0 : 0 ≤ frictionRate P.g n s.q := by
        unfold frictionRate
        have := Real.rpow_nonneg hpos.le (-(1 : ℝ) / 3)
        positivity
      have h1 : 0 < 1 + dt * frictionRate P.g n s.q := by
        have := mul_nonneg hdt hr0
        linarith
      rw [if_pos hw]
      unfold safeDiv
      rw [if_pos hw, if_pos hw, if_neg hpos.ne', if_neg hpos.ne']
      dsimp only [Option.bind]
      rw [hr, if_neg (by rintro (h | h); exacts [hpos.ne' h, h1.ne' h])]
      refine ⟨_, rfl, fun d hd => ?_⟩
      dsimp only
      unfold tRhsOf
      rw [if_pos (c := true = true ∧ s.q.h > P.tinyH) ⟨rfl, hw⟩, b1, b2]
      by_cases h0 : d = 0
      · subst h0
        rw [if_pos rfl, hs0, if_pos (c := 0 < 3) (by omega)]
        unfold frictionTerm
        rw [if_neg (c := 0 = 1) (by omega), if_neg (c := 0 = 2) (by omega)]
        ring
      rw [if_neg h0]
      by_cases h1 : d = 1
      · subst h1
        rw [if_pos rfl, if_pos (c := 1 < 3) (by omega)]
        unfold frictionTerm
        rw [if_pos (c := 1 = 1) rfl]
        ring
      rw [if_neg h1]
      by_cases h2 : d = 2
      · subst h2
        rw [if_pos rfl, if_pos (c := 2 < 3) (by omega)]
        unfold frictionTerm
        rw [if_neg (c := 2 = 1) (by omega), if_pos (c := 2 = 2) rfl]
        ring
      rw [if_neg h2, if_pos (by omega), hst d (by omega), if_neg (c := d < 3) (by omega)]
      unfold tracerSourceCeed
      rw [if_pos hw, shear_eq]
      ring
    · rw [if_neg hw]
      refine ⟨_, rfl, fun d hd => ?_⟩
      dsimp only
      unfold tRhsOf
      rw [if_neg (c := true = true ∧ s.q.h > P.tinyH) (fun h => hw h.2), b1, b2]
      by_cases h0 : d = 0
      · subst h0; rw [if_pos rfl, hs0]; ring
      rw [if_neg h0]
      by_cases h1 : d = 1
      · subst h1; rw [if_pos rfl]; ring
      rw [if_neg h1]
      by_cases h2 : d = 2
      · subst h2; rw [if_pos rfl]; ring
      rw [if_neg h2, if_pos (by omega), hst d (by omega)]
      unfold tracerSourceCeed
      rw [if_neg hw]
      ring

theorem tracerPrim_eq (P : FlowParams) (s : TCons) (k : ℕ) (ht : 0 ≤ P.tinyH) : tracerPrim P s k = some (tPrimOf P s k) := by
  unfold tracerPrim tPrimOf velocitiesCeed safeDiv
  by_cases hw : s.q.h > P.tinyH
  · have hpos : 0 < s.q.h := lt_of_le_of_lt ht hw
    have hd : s.q.h * s.q.h + P.hAnuga * P.hAnuga ≠ 0 := by
      have := mul_pos hpos hpos
      have := mul_self_nonneg P.hAnuga
      linarith
    simp only [if_pos hw, if_neg hpos.ne', if_neg hd, pow_two]
    by_cases h0 : k = 0
    · subst h0; simp
    by_cases h1 : k = 1
    · subst h1; simp
    by_cases h2 : k = 2
    · subst h2; simp
    rw [if_neg (by omega), if_neg h0, if_neg h1, if_neg h2]
  · simp only [if_neg hw]
    by_cases h0 : k = 0
    · subst h0; simp
    by_cases h3 : k < 3
    · rw [if_pos h3, if_neg h0]
      simp [h0]
    · rw [if_neg h3, if_neg h0]

/-! ### Evaluations -/

/-- C117 (definedness, the part that holds): with at most five tracers the operator can be built and evaluated any number of times. Missing: more tracers, see
`C117_many_tracers_violated`. -/
theorem C117_defined_partial (P : FlowParams) (fr slope : Bool) {nt : ℕ} (hnt : nt ≤ 5) {S : SCells} {n : ℕ} (hS : S.Valid n) (l : List SCall)
    (hl : ∀ a ∈ l, a.FitsT nt S n) :
    ∃ op op', createSourceT P fr slope nt S = some op ∧ sourceEvaluationsT nt S.numOwned op l = some op' := by
  obtain ⟨op, h1, h2⟩ := createSourceT_state P fr slope nt hS
  obtain ⟨op', h3, -⟩ := sourceEvaluationsT_state P fr slope hnt hS l op hl h2
  exact ⟨op, op', h1, h3⟩

private theorem cells_raw (P : FlowParams) (fr slope : Bool) {nt : ℕ} (hnt : nt ≤ 5) {S : SCells} {n : ℕ} (hS : S.Valid n) (l : List SCall)
    (hl : ∀ a ∈ l, a.FitsT nt S n) {a : SCall} (ha : a.FitsT nt S n) {op op' : COp} (h1 : createSourceT P fr slope nt S = some op)
    (h2 : sourceEvaluationsT nt S.numOwned op l = some op') :
    ∃ op'' rhs pv si, sourceEvaluationT nt S.numOwned op' a = some (op'', rhs) ∧ op''.outVec 1 = some pv ∧ op''.outVec 2 = some si ∧
      rhs.len = (3 + nt) * S.numOwned ∧ pv.len = (3 + nt) * S.numOwned ∧ si.len = (3 + nt) * S.numOwned ∧
      ∀ c < n, S.owned.val c = true → ∀ k < 3 + nt,
        rhs.val ((3 + nt) * S.l2o.val c + k) = ((srcCellT P fr slope nt S a (S.l2o.val c) c).map fun f => f k) ∧
        pv.val ((3 + nt) * S.l2o.val c + k) = tracerPrim P (tStateAt nt a.u c) k ∧
        si.val ((3 + nt) * S.l2o.val c + k) = some (a.ext.val ((3 + nt) * S.l2o.val c + k)) := by
  obtain ⟨op0, e1, e2⟩ := createSourceT_state P fr slope nt hS
  obtain rfl : op0 = op := Option.some.inj (e1.symm.trans h1)
  obtain ⟨op1, e3, g, o, x, y, z, pv, si, e4, e5, e6, rfl⟩ := sourceEvaluationsT_state P fr slope hnt hS l op0 hl e2
  obtain rfl := Option.some.inj (e3.symm.trans h2)
  obtain ⟨pv', si', rhs, i1, i2, i3, i4, i5⟩ := sourceEvaluationT_spec P fr slope hnt hS e4 ha x y z e5 e6
  refine ⟨_, rhs, pv', si', i1, rfl, rfl, i4, i2, i3, ?_⟩
  intro c hc ho k hk
  obtain ⟨j1, j2⟩ := ownedList_getD S hc ho
  have h := i5 (S.ownedList c).length (by rw [hS.count]; exact j1) k hk
  rw [j2] at h
  rw [hS.number c hc ho]
  exact h

/-- C117 (what an evaluation gives): whatever was evaluated before, the entries of an owned cell are the right-hand side of that cell with its own slope, sources, roughness,
flux divergence and state, and the vectors of primitive variables and of sources hold the values of *this* evaluation. -/
theorem C117_cells (P : FlowParams) (fr slope : Bool) (hg : 0 ≤ P.g) (ht : 0 ≤ P.tinyH) {nt : ℕ} (hnt : nt ≤ 5) {S : SCells} {n : ℕ}
    (hS : S.Valid n) (l : List SCall) (hl : ∀ a ∈ l, a.FitsT nt S n) {a : SCall} (ha : a.FitsT nt S n) (hdt : 0 ≤ a.dt) {op op' : COp}
    (h1 : createSourceT P fr slope nt S = some op) (h2 : sourceEvaluationsT nt S.numOwned op l = some op') :
    ∃ op'' rhs pv si, sourceEvaluationT nt S.numOwned op' a = some (op'', rhs) ∧ op''.outVec 1 = some pv ∧ op''.outVec 2 = some si ∧
      rhs.len = (3 + nt) * S.numOwned ∧ pv.len = (3 + nt) * S.numOwned ∧ si.len = (3 + nt) * S.numOwned ∧
      ∀ c < n, S.owned.val c = true → ∀ k < 3 + nt,
        rhs.val ((3 + nt) * S.l2o.val c + k) =
          some (tRhsOf P fr slope (S.dzdx.val c) (S.dzdy.val c) a.dt (a.mat.val (S.l2o.val c))
            (fun d => a.ext.val ((3 + nt) * S.l2o.val c + d)) (fun d => a.fd.val ((3 + nt) * S.l2o.val c + d)) (tStateAt nt a.u c) k) ∧
        pv.val ((3 + nt) * S.l2o.val c + k) = some (tPrimOf P (tStateAt nt a.u c) k) ∧
        si.val ((3 + nt) * S.l2o.val c + k) = some (a.ext.val ((3 + nt) * S.l2o.val c + k)) := by
  obtain ⟨op'', rhs, pv, si, i1, i2, i3, i4, i5, i6, i7⟩ := cells_raw P fr slope hnt hS l hl ha h1 h2
  refine ⟨op'', rhs, pv, si, i1, i2, i3, i4, i5, i6, fun c hc ho k hk => ?_⟩
  obtain ⟨j1, j2, j3⟩ := i7 c hc ho k hk
  refine ⟨?_, j2.trans (tracerPrim_eq P _ k ht), j3⟩
  obtain ⟨f, f1, f2⟩ := cellTSource_eq P fr slope nt (S.dzdx.val c) (S.dzdy.val c) (dt := a.dt) (a.mat.val (S.l2o.val c))
    (rowAt nt a.ext (S.l2o.val c)) (rowAt nt a.fd (S.l2o.val c)) (tStateAt nt a.u c) hg ht hdt
  rw [j1]
  unfold srcCellT
  rw [f1]
  exact congrArg some (f2 k hk)

/-- C117: two runs with different histories give the same right-hand side, primitive variables and recorded sources. -/
theorem C117_no_history (P : FlowParams) (fr slope : Bool) {nt : ℕ} (hnt : nt ≤ 5) {S : SCells} {n : ℕ} (hS : S.Valid n) (l l' : List SCall)
    (hl : ∀ a ∈ l, a.FitsT nt S n) (hl' : ∀ a ∈ l', a.FitsT nt S n) {a : SCall} (ha : a.FitsT nt S n) {op op1 op2 : COp}
    (h1 : createSourceT P fr slope nt S = some op) (h2 : sourceEvaluationsT nt S.numOwned op l = some op1)
    (h3 : sourceEvaluationsT nt S.numOwned op l' = some op2) :
    ∃ r r' v v' w w', sourceEvaluationT nt S.numOwned op1 a = some r ∧ sourceEvaluationT nt S.numOwned op2 a = some r' ∧
      r.1.outVec 1 = some v ∧ r'.1.outVec 1 = some v' ∧ r.1.outVec 2 = some w ∧ r'.1.outVec 2 = some w' ∧
      ∀ i < (3 + nt) * S.numOwned, r.2.val i = r'.2.val i ∧ v.val i = v'.val i ∧ w.val i = w'.val i := by
  obtain ⟨o1, rhs, pv, si, i1, i2, i3, -, -, -, i4⟩ := cells_raw P fr slope hnt hS l hl ha h1 h2
  obtain ⟨o2, rhs', pv', si', j1, j2, j3, -, -, -, j4⟩ := cells_raw P fr slope hnt hS l' hl' ha h1 h3
  refine ⟨_, _, pv, pv', si, si', i1, j1, i2, j2, i3, j3, ?_⟩
  intro i hi
  have h0 : 0 < 3 + nt := by omega
  obtain ⟨c, ⟨c1, c2, c3⟩, -⟩ := C111_covered hS (i / (3 + nt)) (Nat.div_lt_of_lt_mul hi)
  have a1 := i4 c c1 c2 (i % (3 + nt)) (Nat.mod_lt _ h0)
  have a2 := j4 c c1 c2 (i % (3 + nt)) (Nat.mod_lt _ h0)
  rw [c3, Nat.div_add_mod i (3 + nt)] at a1 a2
  exact ⟨a1.1.trans a2.1.symm, a1.2.1.trans a2.2.1.symm, a1.2.2.trans a2.2.2.symm⟩

/-! ### The whole right-hand side on one process -/

theorem sources_foldT (P : FlowParams) (slope : Bool) (nt : ℕ) (pm : PMesh) (dt : ℝ) (src : ℕ → ℕ → ℝ) (mann : ℕ → ℝ)
    (fd : ℕ → ℕ → ℝ) (u : ℕ → TCons) : ∀ (N : ℕ) (f g : ℕ → ℕ → ℝ), (∀ c < N, pm.owned c = true) → (∀ c < N, pm.l2o c = c) →
      (List.range N).foldlM (ceedTSourceCell P slope nt pm dt src mann fd u) f = some g →
      (∀ c < N, cellTRhsCeed P slope nt (pm.dzdx c) (pm.dzdy c) dt (mann c) (src c) (fd c) (u c) = some (g c)) := by
  intro N
  induction N with
  | zero => intro f g _ _ _ c hc; exact absurd hc (Nat.not_lt_zero _)
  | succ N ih =>
    intro f g ho hl h c hc
    rw [List.range_succ, List.foldlM_append] at h
    obtain ⟨g', h1, h2⟩ := Option.bind_eq_some_iff.mp h
    have h3 : ceedTSourceCell P slope nt pm dt src mann fd u g' N = some g := by
      rw [List.foldlM_cons] at h2
      obtain ⟨g2, h4, h5⟩ := Option.bind_eq_some_iff.mp h2
      rw [h4]; exact h5
    unfold ceedTSourceCell at h3
    rw [if_pos (ho N (Nat.lt_succ_self N)), hl N (Nat.lt_succ_self N)] at h3
    obtain ⟨F, h4, h5⟩ := Option.map_eq_some_iff.mp h3
    by_cases hcN : c = N
    · subst hcN
      rw [h4, ← h5, Function.update_self]
    · rw [← h5, Function.update_of_ne hcN]
      exact ih f g' (fun c hc => ho c (by omega)) (fun c hc => hl c (by omega)) h1 c (by omega)

theorem realVec_someT {a : Arr Num} {nt N : ℕ} (hl : a.len = (3 + nt) * N) (f : ℕ → ℕ → ℝ)
    (h : ∀ c, ∀ k < 3 + nt, a.val ((3 + nt) * c + k) = some (f c k)) :
    ∃ b, realVec a = some b ∧ b.len = (3 + nt) * N ∧ ∀ c, ∀ k < 3 + nt, b.val ((3 + nt) * c + k) = f c k := by
  have h0 : 0 < 3 + nt := by omega
  refine ⟨⟨a.len, fun i => (a.val i).getD 0⟩, if_pos ?_, hl, ?_⟩
  · intro i _
    have := h (i / (3 + nt)) (i % (3 + nt)) (Nat.mod_lt _ h0)
    rw [Nat.div_add_mod i (3 + nt)] at this
    rw [this]; rfl
  · intro c k hk
    dsimp only
    rw [h c k hk]
    rfl

private theorem cellTRhs_congr (P : FlowParams) (slope : Bool) (nt : ℕ) (dzdx dzdy dt mann : ℝ) (src F F' : ℕ → ℝ) (s : TCons)
    (h : ∀ k < 3 + nt, F k = F' k) {f : ℕ → ℝ} (hf : cellTRhsCeed P slope nt dzdx dzdy dt mann src F' s = some f) :
    ∃ g, cellTRhsCeed P slope nt dzdx dzdy dt mann src F s = some g ∧ ∀ k < 3 + nt, g k = f k := by
  unfold cellTRhsCeed at hf ⊢
  rw [h 1 (by omega), h 2 (by omega)]
  obtain ⟨t, t1, t2⟩ := Option.map_eq_some_iff.mp hf
  rw [t1]
  refine ⟨_, rfl, fun k hk => ?_⟩
  rw [← t2]
  dsimp only
  rw [h 0 (by omega), h k hk]

/-- C117 (the right-hand side on one process): whatever was evaluated before, the assembled operators give for every cell the right-hand side that the edges and cells
give one by one (`ceedTracerRhs`, for which C104 and C107 are stated). -/
theorem C117_rhs (sv : TSolver) (P : FlowParams) (mem : Mem) {nt : ℕ} (hnt : nt ≤ 5) {T : CTables} {nc n ne nv : ℕ}
    (hT : T.Valid nc n ne nv) {Bs : List TBnd} (hB : ∀ B ∈ Bs, B.Valid ne nt) {S : SCells} (hS : S.Valid nc)
    (hown : ∀ c < nc, S.owned.val c = true) (hTS : T.owned = S.owned) (hTl : T.l2o = S.l2o)
    (l : List (ℝ × Arr ℝ)) (hl : ∀ s ∈ l, s.2.len = (3 + nt) * nc) (hw : ∀ s ∈ l, ∀ B ∈ Bs, B.WetOn P nt T s.2)
    (l' : List SCall) (hl' : ∀ a ∈ l', a.FitsT nt S nc) {ops ops' : List COp} {op op' : COp} (h1 : createFluxT sv P nt mem T Bs = some ops)
    (h2 : fluxEvaluationsT nt nc l ops = some ops') (h3 : createSourceT P true true nt S = some op)
    (h4 : sourceEvaluationsT nt nc op l' = some op') (dt : ℝ) (u ext mat : Arr ℝ) (hu : u.len = (3 + nt) * nc)
    (hwu : ∀ B ∈ Bs, B.WetOn P nt T u) (he : ext.len = (3 + nt) * nc) (hm : mat.len = nc) {f : ℕ → ℕ → ℝ}
    (hf : ceedTracerRhs false sv P nt { ceedMeshOf T [] nc with dzdx := S.dzdx.val, dzdy := S.dzdy.val } (ownEdges nt T Bs) dt
      (fun c d => ext.val ((3 + nt) * c + d)) mat.val (tStateAt nt u) = some f) :
    ∃ ops'' op'' rhs, applyCeedT nt nc dt u ext mat ops' op' = some (ops'', op'', rhs) ∧ rhs.len = (3 + nt) * nc ∧
      ∀ c < nc, ∀ k < 3 + nt, rhs.val ((3 + nt) * c + k) = some (f c k) := by
  obtain ⟨hn, hid⟩ := allOwned_l2o hS hown
  unfold ceedTracerRhs at hf
  obtain ⟨d, hd, hfold⟩ := Option.bind_eq_some_iff.mp hf
  obtain ⟨ops'', r, e1, e2, e3⟩ := C116_divergence sv P mem hnt hT hB l hl hw dt u hu hwu h1 h2
  obtain ⟨b, b1, b2, b3⟩ := realVec_someT e2 d (e3 d hd)
  have hfit : (⟨dt, u, ext, mat, b⟩ : SCall).FitsT nt S nc := ⟨hu, by rw [hn]; exact he, by rw [hn, Nat.one_mul]; exact hm, by rw [hn]; exact b2⟩
  obtain ⟨op'', rhs, pv, si, i1, -, -, i2, -, -, i3⟩ := cells_raw P true true hnt hS l' hl' hfit h3 (by rw [hn]; exact h4)
  rw [hn] at i1 i2
  have hrest := sources_foldT P (!false) nt { ceedMeshOf T [] nc with dzdx := S.dzdx.val, dzdy := S.dzdy.val } dt _ mat.val d (tStateAt nt u) nc d f
    (fun c hc => by show T.owned.val c = true; rw [hTS]; exact hown c hc)
    (fun c hc => by show T.l2o.val c = c; rw [hTl]; exact hid c hc) hfold
  refine ⟨ops'', op'', rhs, ?_, i2, ?_⟩
  · unfold applyCeedT
    rw [e1]
    show (realVec r).bind _ = _
    rw [b1]
    show Option.map _ (sourceEvaluationT nt nc op' _) = _
    rw [i1]
    rfl
  · intro c hc k hk
    have h5 := (i3 c hc (hown c hc) k hk).1
    rw [hid c hc] at h5
    rw [h5]
    obtain ⟨g, g1, g2⟩ := cellTRhs_congr P true nt _ _ dt _ _ (rowAt nt b c) (d c) _ (fun k hk => b3 c k hk) (hrest c hc)
    have h7 : srcCellT P true true nt S ⟨dt, u, ext, mat, b⟩ c c = some g := g1
    rw [h7]
    exact congrArg some (g2 k hk)

private theorem ceedTracerRhs_isSome (sv : TSolver) {P : FlowParams} (nt : ℕ) (pm : PMesh) (bnd : List TBEdge) {dt : ℝ} (src : ℕ → ℕ → ℝ)
    (mann : ℕ → ℝ) (u : ℕ → TCons) (hg : 0 ≤ P.g) (ht : 0 ≤ P.tinyH) (hdt : 0 ≤ dt) {d : ℕ → ℕ → ℝ}
    (hd : ceedTDiv false sv P nt pm bnd u = some d) : (ceedTracerRhs false sv P nt pm bnd dt src mann u).isSome := by
  unfold ceedTracerRhs
  rw [hd]
  refine foldlM_isSome _ _ d (fun f c _ => ?_)
  unfold ceedTSourceCell
  by_cases ho : pm.owned c = true
  · rw [if_pos ho]
    obtain ⟨f, h, -⟩ := cellTSource_eq P true (!false) nt (pm.dzdx c) (pm.dzdy c) (mann (pm.l2o c)) (src (pm.l2o c)) (d (pm.l2o c)) (u c) hg ht hdt
    have h' : cellTRhsCeed P (!false) nt (pm.dzdx c) (pm.dzdy c) dt (mann (pm.l2o c)) (src (pm.l2o c)) (d (pm.l2o c)) (u c) = some f := h
    rw [h']
    rfl
  · rw [if_neg ho]
    rfl

/-- C117 (both backends, the part that holds): on one process, in any state of `TSame`, the assembled CEED operators give the right-hand side of the PETSc backend,
whatever was evaluated before. Missing: the states in which the backends differ, see `C104_rhs_partial`. -/
theorem C117_backends_partial (sv : TSolver) (P : FlowParams) (mem : Mem) (hg : 0 ≤ P.g) (ht : 0 < P.tinyH) {nt : ℕ} (hnt : nt ≤ 5)
    {T : CTables} {nc n ne nv : ℕ} (hT : T.Valid nc n ne nv) {Bs : List TBnd} (hB : ∀ B ∈ Bs, B.Valid ne nt) {S : SCells} (hS : S.Valid nc)
    (hown : ∀ c, S.owned.val c = true) (hTS : T.owned = S.owned) (hTl : T.l2o = S.l2o)
    (l : List (ℝ × Arr ℝ)) (hl : ∀ s ∈ l, s.2.len = (3 + nt) * nc) (hw : ∀ s ∈ l, ∀ B ∈ Bs, B.WetOn P nt T s.2)
    (l' : List SCall) (hl' : ∀ a ∈ l', a.FitsT nt S nc) {ops ops' : List COp} {op op' : COp} (h1 : createFluxT sv P nt mem T Bs = some ops)
    (h2 : fluxEvaluationsT nt nc l ops = some ops') (h3 : createSourceT P true true nt S = some op)
    (h4 : sourceEvaluationsT nt nc op l' = some op') {dt : ℝ} (hdt : 0 ≤ dt) (u ext mat : Arr ℝ) (hu : u.len = (3 + nt) * nc)
    (hwu : ∀ B ∈ Bs, B.WetOn P nt T u) (he : ext.len = (3 + nt) * nc) (hm : mat.len = nc)
    (hv : EdgesValid (ceedMeshOf T [] nc)) (hbv : BndValid (ceedMeshOf T [] nc) (ownEdges nt T Bs))
    (hs : TSame false sv P nt (ceedMeshOf T [] nc) (ownEdges nt T Bs) (fun c d => ext.val ((3 + nt) * c + d)) (tStateAt nt u))
    (hpos : ∀ c, 0 ≤ (tStateAt nt u c).q.h) (hbp : ∀ e ∈ ownEdges nt T Bs, BCNonneg e.bc) :
    ∃ ops'' op'' rhs f, applyCeedT nt nc dt u ext mat ops' op' = some (ops'', op'', rhs) ∧
      tracerRhs false sv P nt { ceedMeshOf T [] nc with dzdx := S.dzdx.val, dzdy := S.dzdy.val } (ownEdges nt T Bs) dt
        (fun c d => ext.val ((3 + nt) * c + d)) mat.val (tStateAt nt u) = some f ∧
      ∀ c < nc, ∀ k < 3 + nt, rhs.val ((3 + nt) * c + k) = some (f c k) := by
  obtain ⟨hn, hid⟩ := allOwned_l2o hS fun c _ => hown c
  have hv' : EdgesValid { ceedMeshOf T [] nc with dzdx := S.dzdx.val, dzdy := S.dzdy.val } := ⟨hv.1, hv.2, hv.3, hv.4⟩
  have hs' : TSame false sv P nt { ceedMeshOf T [] nc with dzdx := S.dzdx.val, dzdy := S.dzdy.val } (ownEdges nt T Bs)
      (fun c d => ext.val ((3 + nt) * c + d)) (tStateAt nt u) := ⟨hs.1, hs.2, hs.3, hs.4, hs.5, hs.6⟩
  have hown' : ∀ c, ({ ceedMeshOf T [] nc with dzdx := S.dzdx.val, dzdy := S.dzdy.val } : PMesh).owned c = true :=
    fun c => by show T.owned.val c = true; rw [hTS]; exact hown c
  have hl2o : ∀ c < nc, T.l2o.val c = c := fun c hc => by rw [hTl]; exact hid c hc
  have heq := C104_rhs_partial (hr := false) (sv := sv) (P := P) (n := nt) (pm := { ceedMeshOf T [] nc with dzdx := S.dzdx.val, dzdy := S.dzdy.val })
    (bnd := ownEdges nt T Bs) dt (src := fun c d => ext.val ((3 + nt) * c + d)) (mann := mat.val) (u := tStateAt nt u) hg ht hown' hv' hbv
    (by
      intro c hc c' hc' _ _ h
      have h' : T.l2o.val c = T.l2o.val c' := h
      rw [hl2o c hc, hl2o c' hc'] at h'
      exact h')
    (by intro c hc; show mat.val (T.l2o.val c) = mat.val c; rw [hl2o c hc]) hs'
  obtain ⟨d, hd⟩ := Option.isSome_iff_exists.mp (C39_tracer_defined sv nt { ceedMeshOf T [] nc with dzdx := S.dzdx.val, dzdy := S.dzdy.val }
    (ownEdges nt T Bs) (tStateAt nt u) ht hpos hbp)
  have hd' := (ceedTDiv_eq hg ht hown' hv' hbv hs').trans hd
  obtain ⟨f, hf⟩ := Option.isSome_iff_exists.mp (ceedTracerRhs_isSome sv nt { ceedMeshOf T [] nc with dzdx := S.dzdx.val, dzdy := S.dzdy.val }
    (ownEdges nt T Bs) (fun c d => ext.val ((3 + nt) * c + d)) mat.val (tStateAt nt u) hg ht.le hdt hd')
  obtain ⟨ops'', op'', rhs, i1, -, i3⟩ := C117_rhs sv P mem hnt hT hB hS (fun c _ => hown c) hTS hTl l hl hw l' hl' h1 h2 h3 h4 dt u ext mat hu hwu he hm hf
  exact ⟨ops'', op'', rhs, f, i1, heq.symm.trans hf, i3⟩

/-! ### Violations -/

/-- C117 (violated: any number of tracers): with five sediment classes and salinity, which the configuration allows, the source operator writes outside the arrays of its
Q-function as soon as the process owns a cell. -/
theorem C117_many_tracers_violated (P : FlowParams) (fr slope : Bool) (c : CeedCfg) (hc : c.classes = 5) (hs : c.salinity = true)
    {S : SCells} {n : ℕ} (hS : S.Valid n) (h0 : 0 < S.numOwned) (a : SCall) :
    ∃ op, createSourceT P fr slope c.tracers S = some op ∧ sourceEvaluationT c.tracers S.numOwned op a = none := by
  obtain ⟨g, o, -, h2⟩ := createSourceT_spec P fr slope c.tracers hS
  refine ⟨_, h2, ?_⟩
  refine applyAdd_none (op := sourceT P fr slope c.tracers S.numOwned g o a.ext a.mat a.fd
    (Arr.calloc ((3 + c.tracers) * S.numOwned) (some 0)) (Arr.calloc ((3 + c.tracers) * S.numOwned) (some 0))) (dt := a.dt) (u := a.u) (j := 0) h0 ?_
    (Arr.calloc ((3 + c.tracers) * S.numOwned) (some 0))
  refine source_point_many P fr slope ?_ S.numOwned g o a.ext a.mat a.fd _ _ a.dt a.u 0
  unfold CeedCfg.tracers maxSedimentClasses
  rw [hc, hs]
  simp only [if_true]
  omega

/-! ### Examples -/

/-- still water of depth 1 everywhere with sediment of concentration 0.25 (and no salt if there is a second tracer) -/
noncomputable def exTSCall (nt : ℕ) (x : ℝ) : SCall :=
  ⟨1, ⟨(3 + nt) * 3, fun j => if j % (3 + nt) = 0 then 1 else if j % (3 + nt) = 3 then 0.25 else 0⟩,
    ⟨(3 + nt) * 2, fun j => if j = 3 + nt then x else 0⟩, ⟨2, fun _ => 0.03⟩, ⟨(3 + nt) * 2, fun _ => 0⟩⟩

theorem exTSCall_fits (nt : ℕ) (x : ℝ) : (exTSCall nt x).FitsT nt exSC 3 := by
  refine ⟨rfl, ?_, ?_, ?_⟩ <;> rw [exSC_owned] <;> rfl

theorem exTSCall_state (nt : ℕ) (x : ℝ) (c : ℕ) :
    (tStateAt nt (exTSCall nt x).u c).q = ⟨1, 0, 0⟩ ∧ ∀ j < nt, (tStateAt nt (exTSCall nt x).u c).hc j = if j = 0 then 0.25 else 0 := by
  have h : ∀ k < 3 + nt, (exTSCall nt x).u.val ((3 + nt) * c + k) = if k = 0 then 1 else if k = 3 then 0.25 else 0 := by
    intro k hk
    show (if ((3 + nt) * c + k) % (3 + nt) = 0 then (1 : ℝ) else _) = _
    rw [Nat.mul_add_mod, Nat.mod_eq_of_lt hk]
  have h0 := h 0 (by omega)
  have h1 := h 1 (by omega)
  have h2 := h 2 (by omega)
  rw [Nat.add_zero] at h0
  constructor
  · show (⟨(exTSCall nt x).u.val ((3 + nt) * c), (exTSCall nt x).u.val ((3 + nt) * c + 1), (exTSCall nt x).u.val ((3 + nt) * c + 2)⟩ : Cons) = _
    rw [h0, h1, h2]
    simp
  · intro j hj
    show (exTSCall nt x).u.val ((3 + nt) * c + 3 + j) = _
    rw [Nat.add_assoc, h (3 + j) (by omega), if_neg (by omega)]
    by_cases hj0 : j = 0
    · rw [if_pos hj0, if_pos (by omega)]
    · rw [if_neg hj0, if_neg (by omega)]

/-- what an evaluation gives the first cell of the example -/
theorem exTSCall_rhs (fr : Bool) {nt : ℕ} (hnt : nt ≤ 5) (x : ℝ) (j : ℕ) (hj : j < nt) : ∃ op op' rhs, createSourceT exCP fr true nt exSC = some op ∧
    sourceEvaluationT nt exSC.numOwned op (exTSCall nt x) = some (op', rhs) ∧
    rhs.val (3 + j) = some (if fr then -0.001 - 0.01 * (if j = 0 then 0.25 else 0) else 0) := by
  obtain ⟨op, -, h1, -⟩ := C117_defined_partial exCP fr true hnt exSC_valid [] (fun a ha => absurd ha List.not_mem_nil)
  obtain ⟨op', rhs, pv, si, h3, -, -, -, -, -, h5⟩ := C117_cells exCP fr true (by norm_num [exCP]) (by norm_num [exCP]) hnt exSC_valid []
    (fun a ha => absurd ha List.not_mem_nil) (exTSCall_fits nt x) (by show (0 : ℝ) ≤ 1; norm_num) h1 rfl
  refine ⟨op, op', rhs, h1, h3, ?_⟩
  have h6 := (h5 0 (by omega) (by decide) (3 + j) (by omega)).1
  have hl : exSC.l2o.val 0 = 0 := by decide +kernel
  rw [hl, Nat.mul_zero, Nat.zero_add] at h6
  rw [h6]
  obtain ⟨s1, s2⟩ := exTSCall_state nt x 0
  have s3 := s2 j hj
  have hx : (exTSCall nt x).ext.val (0 + (3 + j)) = 0 := if_neg (by omega)
  have hst : slopeTerm exCP.g (exSC.dzdx.val 0) (exSC.dzdy.val 0) 1 (3 + j) = 0 := by
    unfold slopeTerm
    rw [if_neg (by omega), if_neg (by omega)]
  have hne : netErosion exCP.g ((exTSCall nt x).mat.val 0) ⟨1, 0, 0⟩ (if j = 0 then 0.25 else 0) = -0.001 - 0.01 * (if j = 0 then 0.25 else 0) := by
    unfold netErosion bedShear
    norm_num
  unfold tRhsOf
  dsimp only
  rw [s1, Nat.zero_add] at *
  dsimp only
  rw [hst, hx, Nat.add_sub_cancel_left, s3]
  cases fr with
  | false => simp [exTSCall]
  | true =>
    rw [if_pos (c := true = true ∧ (1 : ℝ) > exCP.tinyH) ⟨rfl, by norm_num [exCP]⟩, if_neg (c := 3 + j < 3) (by omega), hne]
    simp [exTSCall]

/-- C117 (violated: erosion and deposition with either friction method): in still water with suspended sediment the semi-implicit method lets sediment settle; with `arkimex` the same cell keeps
all of it, since erosion and deposition are computed in the routine of the semi-implicit friction (`/repo/src/tracer/tracer_sources_ceed.h:113-127`). -/
theorem C117_imex_violated : ∃ op op1 op' op1' rhs rhs',
    createSourceT exCP true true 1 exSC = some op ∧ sourceEvaluationT 1 exSC.numOwned op (exTSCall 1 0) = some (op1, rhs) ∧
    createSourceT exCP false true 1 exSC = some op' ∧ sourceEvaluationT 1 exSC.numOwned op' (exTSCall 1 0) = some (op1', rhs') ∧
    rhs.val 3 = some (-0.0035) ∧ rhs'.val 3 = some 0 := by
  obtain ⟨op, op1, rhs, h1, h2, h3⟩ := exTSCall_rhs true (nt := 1) (by omega) 0 0 (by omega)
  obtain ⟨op', op1', rhs', i1, i2, i3⟩ := exTSCall_rhs false (nt := 1) (by omega) 0 0 (by omega)
  refine ⟨op, op1, op', op1', rhs, rhs', h1, h2, i1, i2, h3.trans ?_, i3⟩
  congr 1
  norm_num

/-- C117 (violated: salinity changes by fluxes and its sources only): with one sediment class and salinity, fresh still water without any flux or source loses salt, so that its salinity becomes
negative: the rates of erosion and deposition are applied to all tracers (`/repo/src/tracer/tracer_sources_ceed.h:67-72,132-134`). -/
theorem C117_salinity_violated : ∃ op op' rhs, createSourceT exCP true true 2 exSC = some op ∧
    sourceEvaluationT 2 exSC.numOwned op (exTSCall 2 0) = some (op', rhs) ∧ (tStateAt 2 (exTSCall 2 0).u 0).hc 1 = 0 ∧
    rhs.val 4 = some (-0.001) := by
  obtain ⟨op, op1, rhs, h1, h2, h3⟩ := exTSCall_rhs true (nt := 2) (by omega) 0 1 (by omega)
  refine ⟨op, op1, rhs, h1, h2, (exTSCall_state 2 0 0).2 1 (by omega), h3.trans ?_⟩
  congr 1
  norm_num

/-- after an evaluation with rain 5, one with rain 7: cell 2 (owned number 1) records 7, and the concentration there -/
example : ∃ op op' op'' rhs pv si, createSourceT exCP true true 1 exSC = some op ∧
    sourceEvaluationsT 1 exSC.numOwned op [exTSCall 1 5] = some op' ∧ sourceEvaluationT 1 exSC.numOwned op' (exTSCall 1 7) = some (op'', rhs) ∧
    op''.outVec 1 = some pv ∧ op''.outVec 2 = some si ∧ si.val 4 = some 7 ∧ pv.val 7 = some 0.25 := by
  have hl : ∀ a ∈ [exTSCall 1 5], a.FitsT 1 exSC 3 := by intro a ha; rw [List.mem_singleton.mp ha]; exact exTSCall_fits 1 5
  obtain ⟨op, op', h1, h2⟩ := C117_defined_partial exCP true true (nt := 1) (by omega) exSC_valid [exTSCall 1 5] hl
  obtain ⟨op'', rhs, pv, si, h3, h4, h5, -, -, -, h6⟩ := C117_cells exCP true true (by norm_num [exCP]) (by norm_num [exCP]) (nt := 1) (by omega) exSC_valid
    [exTSCall 1 5] hl (exTSCall_fits 1 7) (by show (0 : ℝ) ≤ 1; norm_num) h1 h2
  refine ⟨op, op', op'', rhs, pv, si, h1, h2, h3, h4, h5, ?_, ?_⟩
  all_goals have hl : exSC.l2o.val 2 = 1 := by decide +kernel
  · have h7 := (h6 2 (by omega) (by decide) 0 (by omega)).2.2
    rw [hl] at h7
    exact h7
  · have h7 := (h6 2 (by omega) (by decide) 3 (by omega)).2.1
    rw [hl] at h7
    refine h7.trans (congrArg some ?_)
    obtain ⟨s1, s2⟩ := exTSCall_state 1 7 2
    have s3 := s2 0 (by omega)
    unfold tPrimOf
    rw [s1, show 3 - 3 = 0 from rfl, s3]
    norm_num [exCP]

/-- with and without evaluations before -/
example : ∃ op op' r r' v v' w w', createSourceT exCP false false 2 exSC = some op ∧
    sourceEvaluationsT 2 exSC.numOwned op [exTSCall 2 5, exTSCall 2 6] = some op' ∧
    sourceEvaluationT 2 exSC.numOwned op' (exTSCall 2 7) = some r ∧ sourceEvaluationT 2 exSC.numOwned op (exTSCall 2 7) = some r' ∧
    r.1.outVec 1 = some v ∧ r'.1.outVec 1 = some v' ∧ r.1.outVec 2 = some w ∧ r'.1.outVec 2 = some w' ∧
    ∀ i < 5 * exSC.numOwned, r.2.val i = r'.2.val i ∧ v.val i = v'.val i ∧ w.val i = w'.val i := by
  have hfit : ∀ a ∈ [exTSCall 2 5, exTSCall 2 6], a.FitsT 2 exSC 3 := by
    intro a ha
    rcases List.mem_cons.mp ha with rfl | ha
    · exact exTSCall_fits 2 5
    · rw [List.mem_singleton.mp ha]; exact exTSCall_fits 2 6
  obtain ⟨op, op', h1, h2⟩ := C117_defined_partial exCP false false (nt := 2) (by omega) exSC_valid [exTSCall 2 5, exTSCall 2 6] hfit
  obtain ⟨r, r', v, v', w, w', i1, i2, i3, i4, i5, i6, i7⟩ := C117_no_history exCP false false (nt := 2) (by omega) exSC_valid
    [exTSCall 2 5, exTSCall 2 6] [] hfit (fun a ha => absurd ha List.not_mem_nil) (exTSCall_fits 2 7) h1 h2 rfl
  exact ⟨op, op', r, r', v, v', w, w', h1, h2, i1, i2, i3, i4, i5, i6, i7⟩

example (a : SCall) : ∃ op, createSourceT exCP true true 6 exSC = some op ∧ sourceEvaluationT 6 exSC.numOwned op a = none :=
  C117_many_tracers_violated exCP true true ⟨5, true, false, .none, .semiImplicit, .roe, false⟩ rfl rfl exSC_valid (by rw [exSC_owned]; omega) a

/-- the walls of the two cells of `exOne` -/
noncomputable def exTWalls : TBnd := ⟨⟨2, fun e => 1 + e⟩, .reflecting, ⟨8, fun _ => 0⟩⟩

theorem exTWalls_valid : exTWalls.Valid 3 1 := ⟨fun e he => by show 1 + e < 3; have : e < 2 := he; omega, rfl⟩

theorem exTWalls_edges : ownEdges 1 exOne [exTWalls] = [⟨0, 1, 0, -1, .reflecting⟩, ⟨1, 1, 0, 1, .reflecting⟩] := rfl

/-- water of depth 2 that flows and carries sediment, in both cells: CEED as assembled gives the right-hand side of the PETSc backend, after any evaluations -/
example (l : List (ℝ × Arr ℝ)) (hl : ∀ s ∈ l, s.2.len = 4 * 2) :
    ∃ ops ops' op ops'' op'' r f, createFluxT .roe exParams 1 (fun _ _ _ => none) exOne [exTWalls] = some ops ∧
      fluxEvaluationsT 1 2 l ops = some ops' ∧ createSourceT exParams true true 1 exOneS = some op ∧
      applyCeedT 1 2 0.5 ⟨8, fun j => if j % 4 = 0 then 2 else 1⟩ ⟨8, fun _ => 0.01⟩ ⟨2, fun _ => 0.03⟩ ops' op = some (ops'', op'', r) ∧
      tracerRhs false .roe exParams 1 { ceedMeshOf exOne [] 2 with dzdx := exOneS.dzdx.val, dzdy := exOneS.dzdy.val }
        (ownEdges 1 exOne [exTWalls]) 0.5 (fun _ _ => 0.01) (fun _ => 0.03) (tStateAt 1 ⟨8, fun j => if j % 4 = 0 then 2 else 1⟩) = some f ∧
      ∀ c < 2, ∀ k < 4, r.val (4 * c + k) = some (f c k) := by
  have hB : ∀ B ∈ [exTWalls], B.Valid 3 1 := fun B hB => by rw [List.mem_singleton.mp hB]; exact exTWalls_valid
  have hw : ∀ (u : Arr ℝ), ∀ B ∈ [exTWalls], B.WetOn exParams 1 exOne u := fun u B hB => by
    rw [List.mem_singleton.mp hB]; exact fun h => absurd h nofun
  have hst : ∀ c, (tStateAt 1 ⟨8, fun j => if j % 4 = 0 then 2 else 1⟩ c).q.h = 2 := by
    intro c
    show (if (3 + 1) * c % 4 = 0 then (2 : ℝ) else 1) = 2
    exact if_pos (by omega)
  have hbd : ∀ e ∈ ownEdges 1 exOne [exTWalls], e.bc = .reflecting ∧ e.cell < 2 := by
    intro e he
    rw [exTWalls_edges] at he
    rcases List.mem_cons.mp he with rfl | h
    · exact ⟨rfl, by show 0 < 2; omega⟩
    · rw [List.mem_singleton.mp h]; exact ⟨rfl, by show 1 < 2; omega⟩
  obtain ⟨ops, ops', h1, h2⟩ := C116_defined_partial .roe exParams (fun _ _ _ => none) (nt := 1) (by omega) exOne_valid hB l hl fun s _ => hw s.2
  obtain ⟨op, -, h3, -⟩ := C117_defined_partial exParams true true (nt := 1) (by omega) exOneS_valid [] (fun a ha => absurd ha List.not_mem_nil)
  obtain ⟨ops'', op'', r, f, i1, i2, i3⟩ := C117_backends_partial .roe exParams (fun _ _ _ => none) (by norm_num [exParams]) (by norm_num [exParams])
    (nt := 1) (by omega) exOne_valid hB exOneS_valid (fun _ => rfl) rfl rfl l hl (fun s _ => hw s.2) [] (fun a ha => absurd ha List.not_mem_nil)
    h1 h2 h3 rfl (dt := 0.5) (by norm_num) ⟨8, fun j => if j % 4 = 0 then 2 else 1⟩ ⟨8, fun _ => 0.01⟩ ⟨2, fun _ => 0.03⟩ rfl (hw _) rfl rfl
    ⟨exOne_edges.1, exOne_edges.2, fun e he => absurd he List.not_mem_nil, exOne_edges.4⟩ (fun e he => (hbd e he).2)
    ⟨fun c _ => Or.inl (by rw [hst]; norm_num [exParams]), fun _ e _ r _ => Or.inr (Or.inl (by rw [hst, hst]; norm_num [exParams])),
      fun h => absurd h (by decide), fun h => absurd h (by decide), fun h => absurd h (by decide),
      fun e he => by unfold TRegularEdge; rw [(hbd e he).1]; trivial⟩
    (fun c => by rw [hst]; norm_num) (fun e he => by unfold BCNonneg; rw [(hbd e he).1]; trivial)
  exact ⟨ops, ops', op, ops'', op'', r, f, h1, h2, h3, i1, i2, i3⟩

end RDy
