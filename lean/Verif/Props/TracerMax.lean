import Verif.Props.TracerCons

/-!
C64: bounds on concentrations; C66 and C67: the sources of tracers.
-/

namespace RDy

open Finset

/-! ### C64 -/

/-- Water leaving cell `c` per unit time and area, through internal and boundary edges. -/
noncomputable def outRate (P : FlowParams) (pm : PMesh) (bnd : List TBEdge) (u : ℕ → TCons) (c : ℕ) : ℝ :=
  (pm.internal.map fun e =>
    match e.right with
    | none => 0
    | some r =>
      (if e.left = c then e.len / pm.area c * max 0 (edgeFluxT .upwind P 0 0 (u e.left) (u r) e.sn e.cn)
        else 0) +
      if r = c then e.len / pm.area c * max 0 (-edgeFluxT .upwind P 0 0 (u e.left) (u r) e.sn e.cn)
        else 0).sum +
  (bnd.map fun e =>
    if e.cell = c then e.len / pm.area c * max 0 (bndFluxT .upwind P 0 0 u e) else 0).sum

/-- Lengths and areas are those of a real mesh, and boundary edges belong to local cells. -/
structure PosMesh (pm : PMesh) (bnd : List TBEdge) : Prop where
  len : ∀ e ∈ pm.internal, 0 ≤ e.len
  blen : ∀ e ∈ bnd, 0 ≤ e.len
  area : ∀ c < pm.numCells, 0 < pm.area c
  left : ∀ e ∈ pm.internal, e.left < pm.numCells
  right : ∀ e ∈ pm.internal, ∀ r, e.right = some r → r < pm.numCells
  cell : ∀ e ∈ bnd, e.cell < pm.numCells

/-- Tracer `j` has a concentration between `m` and `M`, and there is no film thinner than `tiny_h`. -/
def ConcIn (tinyH m M : ℝ) (j : ℕ) (s : TCons) : Prop :=
  (s.q.h = 0 ∨ tinyH ≤ s.q.h) ∧ m * s.q.h ≤ s.hc j ∧ s.hc j ≤ M * s.q.h

/-- the same for the water a boundary lets in -/
def BCConcIn (tinyH m M : ℝ) (j : ℕ) : TBCond → Prop
  | .dirichlet s => ConcIn tinyH m M j s
  | .reflecting => True

/-- If every step of a fold adds at most a fixed amount to a quantity, the fold adds at most the sum. -/
theorem foldlM_sum_le {α σ : Type} (step : σ → α → Option σ) (T : σ → ℝ) (d : α → ℝ) :
    ∀ (l : List α) (f f' : σ),
      (∀ f e f', e ∈ l → step f e = some f' → T f' ≤ T f + d e) →
      l.foldlM step f = some f' → T f' ≤ T f + (l.map d).sum
  | [], f, f', _, h => by
      simp at h
      subst h
      simp
  | a :: l, f, f', H, h => by
      rw [List.foldlM_cons] at h
      cases hs : step f a with
      | none => rw [hs] at h; simp at h
      | some f1 =>
        rw [hs] at h
        have h' : l.foldlM step f1 = some f' := h
        have h1 := foldlM_sum_le step T d l f1 f' (fun f e f'' he => H f e f'' (List.mem_cons_of_mem _ he)) h'
        have h2 := H f a f1 (by simp) hs
        simp only [List.map_cons, List.sum_cons]
        linarith

/-- the excess over the bound `B`, in the direction `σ` -/
def excess (pm : PMesh) (σ B : ℝ) (c j : ℕ) (f : ℕ → ℕ → ℝ) : ℝ :=
  σ * (f (pm.l2o c) (3 + j) - B * f (pm.l2o c) 0)

theorem excess_add {pm : PMesh} (hinj : OwnedInj pm) {σ B : ℝ} {c c' j : ℕ} (f : ℕ → ℕ → ℝ)
    (hc : c < pm.numCells) (hc' : c' < pm.numCells) (ho : pm.owned c = true) (F : ℕ → ℝ) (s : ℝ) :
    excess pm σ B c j (addOwnedT pm f c' F s) = excess pm σ B c j f +
      if c' = c then σ * (F (3 + j) - B * F 0) * s else 0 := by
  unfold excess addOwnedT
  by_cases h : c' = c
  · subst h
    rw [if_pos ho, if_pos rfl]
    simp only [if_true]
    ring
  · rw [if_neg h, add_zero]
    by_cases ho' : pm.owned c' = true
    · have hne : pm.l2o c ≠ pm.l2o c' := fun h' => h (hinj c' hc' c hc ho' ho h'.symm)
      rw [if_pos ho']
      simp only [if_neg hne]
    · rw [if_neg ho']

/-- what a side must satisfy: it is dry, or its concentration is on the good side of the bound -/
def GoodSide (σ B : ℝ) (j : ℕ) (s : TPrim) : Prop := 0 < s.p.h → σ * (s.c j - B) ≤ 0

theorem used_flow_zero {P : FlowParams} {n : ℕ} {L R : TPrim} {sn cn : ℝ} {F : ℕ → ℝ}
    (h : usedTracerFlux .upwind P.g P.tinyH n L R sn cn = some F) :
    (usedTracerFlux .upwind P.g P.tinyH 0 L R sn cn).getD (fun _ => 0) 0 = F 0 := by
  unfold usedTracerFlux at h ⊢
  by_cases hw : R.p.h < P.tinyH ∧ L.p.h < P.tinyH
  · rw [if_neg (not_not.mpr hw)] at h ⊢
    simp only [Option.some.injEq] at h
    rw [← h]; rfl
  · rw [if_pos hw] at h ⊢
    unfold tracerFlux at h ⊢
    by_cases hd : RoeDefined L.p.h R.p.h
    · rw [if_pos hd] at h ⊢
      simp only [Option.some.injEq] at h
      rw [← h]; rfl
    · rw [if_neg hd] at h
      exact absurd h (by simp)

theorem used_donor {P : FlowParams} {n j : ℕ} {L R : TPrim} {sn cn : ℝ} {F : ℕ → ℝ}
    (h : usedTracerFlux .upwind P.g P.tinyH n L R sn cn = some F) :
    (0 < F 0 → 0 < L.p.h ∧ F (3 + j) = F 0 * L.c j) ∧
    (F 0 < 0 → 0 < R.p.h ∧ F (3 + j) = F 0 * R.c j) ∧
    (F 0 = 0 → F (3 + j) = 0) := by
  unfold usedTracerFlux at h
  by_cases hw : R.p.h < P.tinyH ∧ L.p.h < P.tinyH
  · rw [if_neg (not_not.mpr hw)] at h
    simp only [Option.some.injEq] at h
    rw [← h]
    simp
  · rw [if_pos hw] at h
    exact C47_donor h j

theorem left_bound {P : FlowParams} {n j : ℕ} {L R : TPrim} {sn cn σ B s : ℝ} {F : ℕ → ℝ} (hs : 0 ≤ s)
    (h : usedTracerFlux .upwind P.g P.tinyH n L R sn cn = some F) (hR : GoodSide σ B j R) :
    σ * (F (3 + j) - B * F 0) * (-s) ≤ σ * (B - L.c j) * (s * max 0 (F 0)) := by
  obtain ⟨d1, d2, d3⟩ := used_donor (j := j) h
  rcases lt_trichotomy (F 0) 0 with hF | hF | hF
  · rw [max_eq_left (le_of_lt hF), (d2 hF).2]
    have := hR (d2 hF).1
    have : 0 ≤ -(F 0) * s * -(σ * (R.c j - B)) := by
      apply mul_nonneg (mul_nonneg (by linarith) hs)
      linarith
    nlinarith
  · rw [hF, d3 hF, max_self]
    linarith
  · rw [max_eq_right (le_of_lt hF), (d1 hF).2]
    apply le_of_eq
    ring

theorem right_bound {P : FlowParams} {n j : ℕ} {L R : TPrim} {sn cn σ B s : ℝ} {F : ℕ → ℝ} (hs : 0 ≤ s)
    (h : usedTracerFlux .upwind P.g P.tinyH n L R sn cn = some F) (hL : GoodSide σ B j L) :
    σ * (F (3 + j) - B * F 0) * s ≤ σ * (B - R.c j) * (s * max 0 (-F 0)) := by
  obtain ⟨d1, d2, d3⟩ := used_donor (j := j) h
  rcases lt_trichotomy (F 0) 0 with hF | hF | hF
  · rw [max_eq_right (by linarith), (d2 hF).2]
    apply le_of_eq
    ring
  · rw [hF, d3 hF, neg_zero, max_self]
    linarith
  · rw [max_eq_left (by linarith), (d1 hF).2]
    have := hL (d1 hF).1
    have : 0 ≤ F 0 * s * -(σ * (L.c j - B)) := by
      apply mul_nonneg (mul_nonneg (le_of_lt hF) hs)
      linarith
    nlinarith

theorem excess_bound {P : FlowParams} {n j : ℕ} {pm : PMesh} {bnd : List TBEdge} {u : ℕ → TCons}
    {f : ℕ → ℕ → ℝ} {σ B : ℝ} {c : ℕ} (hinj : OwnedInj pm) (hm : PosMesh pm bnd)
    (hc : c < pm.numCells) (ho : pm.owned c = true)
    (hu : ∀ c' < pm.numCells, GoodSide σ B j (tracerVelocities P.tinyH (u c')))
    (hb : ∀ e ∈ bnd, GoodSide σ B j
      (tracerRight P.tinyH e.bc (tracerVelocities P.tinyH (u e.cell)) e.sn e.cn))
    (h : tracerDivergence .upwind P n pm bnd u = some f) :
    σ * (f (pm.l2o c) (3 + j) - B * f (pm.l2o c) 0) ≤
      σ * (B - (tracerVelocities P.tinyH (u c)).c j) * outRate P pm bnd u c := by
  unfold tracerDivergence at h
  rw [Option.bind_eq_some_iff] at h
  obtain ⟨f1, h1, h2⟩ := h
  set K := σ * (B - (tracerVelocities P.tinyH (u c)).c j) with hK
  have hac := hm.area c hc
  have e1 := foldlM_sum_le _ (excess pm σ B c j) (fun e : IEdge => K * (match e.right with
    | none => 0
    | some r =>
      (if e.left = c then e.len / pm.area c * max 0 (edgeFluxT .upwind P 0 0 (u e.left) (u r) e.sn e.cn)
        else 0) +
      if r = c then e.len / pm.area c * max 0 (-edgeFluxT .upwind P 0 0 (u e.left) (u r) e.sn e.cn)
        else 0)) pm.internal _ _ (by
      intro f e f' he hs
      unfold tracerEdge at hs
      cases hr : e.right with
      | none =>
        rw [hr] at hs
        simp only [Option.some.injEq] at hs
        rw [← hs]
        simp
      | some r =>
        rw [hr] at hs
        simp only [Option.map_eq_some_iff] at hs
        obtain ⟨F, hF, hs⟩ := hs
        have hl := hm.left e he
        have hrr := hm.right e he r hr
        have hsc : 0 ≤ e.len / pm.area c := div_nonneg (hm.len e he) (le_of_lt hac)
        have h0 : edgeFluxT .upwind P 0 0 (u e.left) (u r) e.sn e.cn = F 0 := used_flow_zero hF
        rw [← hs, excess_add hinj _ hc hrr ho, excess_add hinj _ hc hl ho]
        simp only [h0]
        rw [add_assoc, mul_add]
        apply add_le_add le_rfl
        apply add_le_add
        · by_cases hx : e.left = c
          · rw [if_pos hx, if_pos hx, hK, ← hx, neg_div]
            rw [← hx] at hsc
            exact left_bound hsc hF (hu r hrr)
          · rw [if_neg hx, if_neg hx, mul_zero]
        · by_cases hx : r = c
          · rw [if_pos hx, if_pos hx, hK, ← hx]
            rw [← hx] at hsc
            exact right_bound hsc hF (hu e.left hl)
          · rw [if_neg hx, if_neg hx, mul_zero]) h1
  have e2 := foldlM_sum_le _ (excess pm σ B c j) (fun e : TBEdge => K *
      if e.cell = c then e.len / pm.area c * max 0 (bndFluxT .upwind P 0 0 u e) else 0) bnd _ _ (by
      intro f e f' he hs
      unfold tracerBEdge at hs
      by_cases hoe : pm.owned e.cell = true
      · rw [if_pos hoe] at hs
        simp only [Option.map_eq_some_iff] at hs
        obtain ⟨F, hF, hs⟩ := hs
        have hl := hm.cell e he
        have hsc : 0 ≤ e.len / pm.area c := div_nonneg (hm.blen e he) (le_of_lt hac)
        have h0 : bndFluxT .upwind P 0 0 u e = F 0 := used_flow_zero hF
        rw [← hs, excess_add hinj _ hc hl ho, h0]
        apply add_le_add le_rfl
        by_cases hx : e.cell = c
        · rw [if_pos hx, if_pos hx, hK, ← hx, neg_div]
          rw [← hx] at hsc
          exact left_bound hsc hF (hb e he)
        · rw [if_neg hx, if_neg hx, mul_zero]
      · rw [if_neg hoe] at hs
        simp only [Option.some.injEq] at hs
        have hx : e.cell ≠ c := fun h => hoe (h ▸ ho)
        rw [← hs, if_neg hx]
        simp) h2
  have hz : excess pm σ B c j (fun _ _ => 0) = 0 := by unfold excess; ring
  have hmul : ∀ {α : Type} (l : List α) (d : α → ℝ), (l.map fun e => K * d e).sum = K * (l.map d).sum := by
    intro α l d
    induction l with
    | nil => simp
    | cons a l ih => simp only [List.map_cons, List.sum_cons, ih]; ring
  rw [hmul] at e1 e2
  unfold outRate
  rw [mul_add]
  have : excess pm σ B c j f = σ * (f (pm.l2o c) (3 + j) - B * f (pm.l2o c) 0) := rfl
  linarith

theorem outRate_nonneg {P : FlowParams} {pm : PMesh} {bnd : List TBEdge} (hm : PosMesh pm bnd)
    (u : ℕ → TCons) {c : ℕ} (hc : c < pm.numCells) : 0 ≤ outRate P pm bnd u c := by
  have hac := hm.area c hc
  unfold outRate
  apply add_nonneg
  · apply List.sum_nonneg
    intro x hx
    rw [List.mem_map] at hx
    obtain ⟨e, he, rfl⟩ := hx
    have hsc : 0 ≤ e.len / pm.area c := div_nonneg (hm.len e he) (le_of_lt hac)
    cases e.right with
    | none => exact le_rfl
    | some r =>
      apply add_nonneg
      · split
        · exact mul_nonneg hsc (le_max_left _ _)
        · exact le_rfl
      · split
        · exact mul_nonneg hsc (le_max_left _ _)
        · exact le_rfl
  · apply List.sum_nonneg
    intro x hx
    rw [List.mem_map] at hx
    obtain ⟨e, he, rfl⟩ := hx
    have hsc : 0 ≤ e.len / pm.area c := div_nonneg (hm.blen e he) (le_of_lt hac)
    split
    · exact mul_nonneg hsc (le_max_left _ _)
    · exact le_rfl

theorem goodSide_of {tinyH m M : ℝ} {j : ℕ} {s : TCons} (h : ConcIn tinyH m M j s) :
    GoodSide 1 M j (tracerVelocities tinyH s) ∧ GoodSide (-1) m j (tracerVelocities tinyH s) := by
  obtain ⟨h1, h2, h3⟩ := h
  have key : 0 < (tracerVelocities tinyH s).p.h →
      m ≤ (tracerVelocities tinyH s).c j ∧ (tracerVelocities tinyH s).c j ≤ M := by
    rw [tracerVelocities_h]
    intro hp
    have hw : ¬ s.q.h < tinyH := by
      rcases h1 with h | h <;> linarith
    unfold tracerVelocities
    rw [if_neg hw]
    simp only
    exact ⟨(le_div_iff₀ hp).mpr h2, (div_le_iff₀ hp).mpr h3⟩
  exact ⟨fun hp => by have := (key hp).2; linarith, fun hp => by have := (key hp).1; linarith⟩

theorem goodSide_bc {tinyH m M σ B : ℝ} {j : ℕ} {bc : TBCond} {L : TPrim} {sn cn : ℝ}
    (h : BCConcIn tinyH m M j bc) (hL : GoodSide σ B j L)
    (hs : (σ = 1 ∧ B = M) ∨ (σ = -1 ∧ B = m)) : GoodSide σ B j (tracerRight tinyH bc L sn cn) := by
  cases bc with
  | dirichlet s =>
    obtain ⟨g1, g2⟩ := goodSide_of h
    rcases hs with ⟨rfl, rfl⟩ | ⟨rfl, rfl⟩
    · exact g1
    · exact g2
  | reflecting => exact hL

/-- C64. Discrete maximum principle of the upwind solver. On every mesh: if all concentrations of tracer `j` (in
the cells and in the water let in by the boundaries) lie between `m` and `M`, and no cell loses more water
in the step than it holds, then after the step the concentration of every owned cell still lies between
`m` and `M`. -/
theorem C64_step {P : FlowParams} {n j : ℕ} {pm : PMesh} {bnd : List TBEdge} {u : ℕ → TCons}
    {f : ℕ → ℕ → ℝ} {m M dt : ℝ} {c : ℕ} (hinj : OwnedInj pm) (hm : PosMesh pm bnd) (ht : 0 < P.tinyH)
    (hdt : 0 ≤ dt) (hc : c < pm.numCells) (ho : pm.owned c = true)
    (hu : ∀ c' < pm.numCells, ConcIn P.tinyH m M j (u c')) (hb : ∀ e ∈ bnd, BCConcIn P.tinyH m M j e.bc)
    (h : tracerDivergence .upwind P n pm bnd u = some f)
    (hout : dt * outRate P pm bnd u c ≤ (u c).q.h) :
    m * ((u c).q.h + dt * f (pm.l2o c) 0) ≤ (u c).hc j + dt * f (pm.l2o c) (3 + j) ∧
    (u c).hc j + dt * f (pm.l2o c) (3 + j) ≤ M * ((u c).q.h + dt * f (pm.l2o c) 0) := by
  have hon := outRate_nonneg (P := P) hm u hc
  have hdo := mul_nonneg hdt hon
  have b1 := excess_bound (P := P) (n := n) (j := j) (u := u) (f := f) (σ := 1) (B := M) hinj hm hc ho
    (fun c' hc' => (goodSide_of (hu c' hc')).1)
    (fun e he => goodSide_bc (hb e he) (goodSide_of (hu e.cell (hm.cell e he))).1 (Or.inl ⟨rfl, rfl⟩)) h
  have b2 := excess_bound (P := P) (n := n) (j := j) (u := u) (f := f) (σ := -1) (B := m) hinj hm hc ho
    (fun c' hc' => (goodSide_of (hu c' hc')).2)
    (fun e he => goodSide_bc (hb e he) (goodSide_of (hu e.cell (hm.cell e he))).2 (Or.inr ⟨rfl, rfl⟩)) h
  have b1' := mul_le_mul_of_nonneg_left b1 hdt
  have b2' := mul_le_mul_of_nonneg_left b2 hdt
  obtain ⟨w1, w2, w3⟩ := hu c hc
  set O := outRate P pm bnd u c
  rcases w1 with hz | hw
  · have hO : dt * O = 0 := le_antisymm (by rw [hz] at hout; exact hout) hdo
    rw [hz] at w2 w3
    have hhc : (u c).hc j = 0 := le_antisymm (by linarith) (by linarith)
    rw [hz, hhc]
    have z1 : dt * (1 * (M - (tracerVelocities P.tinyH (u c)).c j) * O) = 0 := by
      rw [show dt * (1 * (M - (tracerVelocities P.tinyH (u c)).c j) * O) =
        (M - (tracerVelocities P.tinyH (u c)).c j) * (dt * O) by ring, hO, mul_zero]
    have z2 : dt * (-1 * (m - (tracerVelocities P.tinyH (u c)).c j) * O) = 0 := by
      rw [show dt * (-1 * (m - (tracerVelocities P.tinyH (u c)).c j) * O) =
        -(m - (tracerVelocities P.tinyH (u c)).c j) * (dt * O) by ring, hO, mul_zero]
    constructor <;> linarith
  · have hp : 0 < (u c).q.h := lt_of_lt_of_le ht hw
    have hk : (tracerVelocities P.tinyH (u c)).c j = (u c).hc j / (u c).q.h := by
      unfold tracerVelocities
      rw [if_neg (not_lt.mpr hw)]
    rw [hk] at b1' b2'
    set k := (u c).hc j / (u c).q.h with hkd
    have hkh : (u c).hc j = k * (u c).q.h := by rw [hkd]; field_simp
    have k1 : m ≤ k := (le_div_iff₀ hp).mpr w2
    have k2 : k ≤ M := (div_le_iff₀ hp).mpr w3
    have p1 := mul_nonneg (sub_nonneg.mpr k1) (sub_nonneg.mpr hout)
    have p2 := mul_nonneg (sub_nonneg.mpr k2) (sub_nonneg.mpr hout)
    rw [hkh]
    constructor <;> linarith

/-- C64. The bounds hold after any number of steps on any distributed mesh. -/
theorem C64_stays {np : ℕ} {P : FlowParams} {n j : ℕ} {pm : Fin np → PMesh}
    {bnd : Fin np → List TBEdge} {gid : Fin np → ℕ → ℕ} {m M : ℝ} (hj : j < n)
    (hinj : ∀ p, OwnedInj (pm p)) (hm : ∀ p, PosMesh (pm p) (bnd p)) (ht : 0 < P.tinyH)
    (hown : ∀ p, ∀ c < (pm p).numCells, ∃ q, ∃ c' < (pm q).numCells,
      (pm q).owned c' = true ∧ gid q c' = gid p c)
    (hb : ∀ p, ∀ e ∈ bnd p, BCConcIn P.tinyH m M j e.bc) (dt : ℕ → ℝ) (U : ℕ → ℕ → TCons) (N : ℕ)
    (hdt : ∀ i, 0 ≤ dt i)
    (hfilm : ∀ i < N, ∀ p, ∀ c < (pm p).numCells, (U i (gid p c)).q.h = 0 ∨ P.tinyH ≤ (U i (gid p c)).q.h)
    (hout : ∀ i < N, ∀ p, ∀ c < (pm p).numCells, (pm p).owned c = true →
      dt i * outRate P (pm p) (bnd p) (fun c => U i (gid p c)) c ≤ (U i (gid p c)).q.h)
    (h0 : ∀ p, ∀ c < (pm p).numCells, m * (U 0 (gid p c)).q.h ≤ (U 0 (gid p c)).hc j ∧
      (U 0 (gid p c)).hc j ≤ M * (U 0 (gid p c)).q.h)
    (h : ∀ i < N, TransportStep .upwind P n pm bnd gid (dt i) (U i) (U (i + 1))) :
    ∀ p, ∀ c < (pm p).numCells, m * (U N (gid p c)).q.h ≤ (U N (gid p c)).hc j ∧
      (U N (gid p c)).hc j ≤ M * (U N (gid p c)).q.h := by
  induction N with
  | zero => exact h0
  | succ N ih =>
    have ih' := ih (fun i hi => hfilm i (Nat.lt_succ_of_lt hi))
      (fun i hi => hout i (Nat.lt_succ_of_lt hi)) fun i hi => h i (Nat.lt_succ_of_lt hi)
    intro p c hc
    obtain ⟨q, c', hc', ho', hgid⟩ := hown p c hc
    rw [← hgid]
    obtain ⟨f, h1, h2⟩ := h N (Nat.lt_succ_self N) q
    obtain ⟨a1, a2⟩ := h2 c' hc' ho'
    rw [a1, a2 j hj]
    exact C64_step (u := fun c => U N (gid q c)) (hinj q) (hm q) ht (hdt N) hc' ho'
      (fun c hc => ⟨hfilm N (Nat.lt_succ_self N) q c hc, (ih' q c hc).1, (ih' q c hc).2⟩) (hb q) h1
      (hout N (Nat.lt_succ_self N) q c' hc' ho')

theorem exSquares_pos (z1 : ℝ) : PosMesh (exSquares z1) [] := by
  refine ⟨?_, by simp, ?_, ?_, ?_, by simp⟩
  · intro e he; simp [exSquares] at he; subst he; norm_num
  · intro c _; simp [exSquares]
  · intro e he; simp [exSquares] at he; subst he; simp [exSquares]
  · intro e he r hr; simp [exSquares] at he; subst he; simp at hr; subst hr; simp [exSquares]

/-- water of concentration 1/2 beside clean water, for every step short enough -/
example (dt : ℝ) (hdt : 0 ≤ dt) (f : ℕ → ℕ → ℝ)
    (h : tracerDivergence .upwind exParams 1 (exSquares 3) []
      (fun c => if c = 0 then ⟨⟨1, 2, 0⟩, fun _ => 0.5⟩ else ⟨⟨1, 0, 0⟩, fun _ => 0⟩) = some f)
    (hout : dt * outRate exParams (exSquares 3) []
      (fun c => if c = 0 then ⟨⟨1, 2, 0⟩, fun _ => 0.5⟩ else ⟨⟨1, 0, 0⟩, fun _ => 0⟩) 1 ≤ 1) :
    0 ≤ dt * f 1 3 ∧ dt * f 1 3 ≤ 0.5 * (1 + dt * f 1 0) := by
  have := C64_step (P := exParams) (n := 1) (j := 0) (pm := exSquares 3) (bnd := [])
    (u := fun c => if c = 0 then ⟨⟨1, 2, 0⟩, fun _ => 0.5⟩ else ⟨⟨1, 0, 0⟩, fun _ => 0⟩) (f := f)
    (m := 0) (M := 0.5) (dt := dt) (c := 1) (exSquares_inj 3) (exSquares_pos 3) (by norm_num [exParams])
    hdt (by norm_num [exSquares]) rfl
    (by
      intro c _
      by_cases hc : c = 0
      · simp only [if_pos hc]
        exact ⟨Or.inr (by norm_num [exParams]), by norm_num, by norm_num⟩
      · simp only [if_neg hc]
        exact ⟨Or.inr (by norm_num [exParams]), by norm_num, by norm_num⟩)
    (by simp) h (by simpa using hout)
  simp only [exSquares, one_ne_zero, if_false, zero_mul, zero_add] at this
  exact this

/-- such steps exist -/
example : ∃ f dt, 0 < dt ∧ tracerDivergence .upwind exParams 1 (exSquares 3) []
      (fun c => if c = 0 then ⟨⟨1, 2, 0⟩, fun _ => 0.5⟩ else ⟨⟨1, 0, 0⟩, fun _ => 0⟩) = some f ∧
    dt * outRate exParams (exSquares 3) []
      (fun c => if c = 0 then ⟨⟨1, 2, 0⟩, fun _ => 0.5⟩ else ⟨⟨1, 0, 0⟩, fun _ => 0⟩) 1 ≤ 1 := by
  obtain ⟨f, hf⟩ := Option.isSome_iff_exists.mp (C39_tracer_defined .upwind (P := exParams) 1 (exSquares 3) []
    (fun c => if c = 0 then ⟨⟨1, 2, 0⟩, fun _ => 0.5⟩ else ⟨⟨1, 0, 0⟩, fun _ => 0⟩)
    (by norm_num [exParams]) (by intro c; by_cases hc : c = 0 <;> simp [hc]) (by simp))
  have hn := outRate_nonneg (P := exParams) (exSquares_pos 3)
    (fun c => if c = 0 then ⟨⟨1, 2, 0⟩, fun _ => 0.5⟩ else ⟨⟨1, 0, 0⟩, fun _ => 0⟩) (c := 1)
    (by norm_num [exSquares])
  set O := outRate exParams (exSquares 3) []
    (fun c => if c = 0 then ⟨⟨1, 2, 0⟩, fun _ => 0.5⟩ else ⟨⟨1, 0, 0⟩, fun _ => 0⟩) 1
  refine ⟨f, 1 / (1 + O), by positivity, hf, ?_⟩
  rw [div_mul_eq_mul_div, one_mul, div_le_one (by linarith)]
  linarith

/-- C64 (disagreement). The Roe solver does not obey the maximum principle: it moves water with an average
concentration, so clean water flowing towards polluted water loses tracer it does not have. Here the left
cell (depth 1) is clean and the right one (depth 1/4) has concentration 1; water flows to the right, and
with it a positive amount of tracer out of the clean cell, whatever the step size. -/
theorem C64_roe_violated (g tinyH : ℝ) (hg : 0 < g) (ht : 0 < tinyH) (ht4 : tinyH ≤ 1 / 4) :
    ∃ F, usedTracerFlux .roe g tinyH 1 (tracerVelocities tinyH ⟨⟨1, 0, 0⟩, fun _ => 0⟩)
      (tracerVelocities tinyH ⟨⟨1 / 4, 0, 0⟩, fun _ => 1 / 4⟩) 0 1 = some F ∧
      F 3 = 1 / 3 * F 0 ∧ 0 < F 0 ∧ ∀ dt > 0, (0 : ℝ) - dt * F 3 < 0 := by
  have hL : tracerVelocities tinyH ⟨⟨1, 0, 0⟩, fun _ => 0⟩ = ⟨⟨1, 0, 0⟩, fun _ => 0⟩ := by
    unfold tracerVelocities
    rw [if_neg (by linarith)]
    norm_num
  have hR : tracerVelocities tinyH ⟨⟨1 / 4, 0, 0⟩, fun _ => 1 / 4⟩ =
      ⟨⟨1 / 4, 0, 0⟩, fun _ => 1⟩ := by
    unfold tracerVelocities
    rw [if_neg (by linarith)]
    norm_num
  rw [hL, hR]
  have hd : RoeDefined (1 : ℝ) (1 / 4) := ⟨by norm_num, by norm_num, by norm_num⟩
  have h4 : √(1 / 4 : ℝ) = 1 / 2 := by
    rw [show (1 / 4 : ℝ) = (1 / 2) ^ 2 by norm_num, Real.sqrt_sq (by norm_num)]
  have hch : tracerChat ⟨⟨1, 0, 0⟩, fun _ => 0⟩ ⟨⟨1 / 4, 0, 0⟩, fun _ => 1⟩ 0 = 1 / 3 := by
    unfold tracerChat roeAvg
    rw [h4, Real.sqrt_one]
    norm_num
  unfold usedTracerFlux
  rw [if_pos (by rintro ⟨-, h⟩; simp only at h; linarith)]
  unfold tracerFlux
  rw [if_pos hd]
  refine ⟨_, rfl, ?_⟩
  have e0 := (tracerCombine_flow g 1 ⟨⟨1, 0, 0⟩, fun _ => 0⟩ ⟨⟨1 / 4, 0, 0⟩, fun _ => 1⟩
    (roeEig g ⟨1, 0, 0⟩ ⟨1 / 4, 0, 0⟩ 0 1) 0 1).1
  rw [roe_mass] at e0
  have e3 := tracerCombine_tracer g (n := 1) ⟨⟨1, 0, 0⟩, fun _ => 0⟩ ⟨⟨1 / 4, 0, 0⟩, fun _ => 1⟩
    (roeEig g ⟨1, 0, 0⟩ ⟨1 / 4, 0, 0⟩ 0 1) 0 1 (j := 0) (by norm_num)
  rw [hch] at e3
  have hu : uperp (0 : ℝ) 0 0 1 = 0 := by unfold uperp; ring
  have hav : roeAvg (1 : ℝ) (1 / 4) 0 0 = 0 := by unfold roeAvg; ring
  have hc : 0 < roeC g 1 (1 / 4) := by
    unfold roeC
    exact Real.sqrt_pos.mpr (by linarith)
  have a1 : roeC g 1 (1 / 4) ≤ (roeEig g ⟨1, 0, 0⟩ ⟨1 / 4, 0, 0⟩ 0 1).a1 := by
    have h : |uperp (roeAvg (1 : ℝ) (1 / 4) 0 0) (roeAvg (1 : ℝ) (1 / 4) 0 0) 0 1 - roeC g 1 (1 / 4)| ≤
      (roeEig g ⟨1, 0, 0⟩ ⟨1 / 4, 0, 0⟩ 0 1).a1 := entropyFix_ge (abs_nonneg _)
    rw [hav, hu, zero_sub, abs_neg, abs_of_pos hc] at h
    exact h
  have a3 : roeC g 1 (1 / 4) ≤ (roeEig g ⟨1, 0, 0⟩ ⟨1 / 4, 0, 0⟩ 0 1).a3 := by
    have h : |uperp (roeAvg (1 : ℝ) (1 / 4) 0 0) (roeAvg (1 : ℝ) (1 / 4) 0 0) 0 1 + roeC g 1 (1 / 4)| ≤
      (roeEig g ⟨1, 0, 0⟩ ⟨1 / 4, 0, 0⟩ 0 1).a3 := entropyFix_ge (abs_nonneg _)
    rw [hav, hu, zero_add, abs_of_pos hc] at h
    exact h
  have a2 : (roeEig g ⟨1, 0, 0⟩ ⟨1 / 4, 0, 0⟩ 0 1).a2 = 0 := by
    simp only [roeEig, hav, hu, abs_zero]
  have w1 : (roeEig g ⟨1, 0, 0⟩ ⟨1 / 4, 0, 0⟩ 0 1).w1 = -3 / 8 := by
    simp only [roeEig, sub_zero, hu]; norm_num
  have w3 : (roeEig g ⟨1, 0, 0⟩ ⟨1 / 4, 0, 0⟩ 0 1).w3 = -3 / 8 := by
    simp only [roeEig, sub_zero, hu]; norm_num
  rw [w1, w3, hu] at e0
  rw [w1, w3, a2, hu] at e3
  have hF0 : 0 < tracerCombine g 1 ⟨⟨1, 0, 0⟩, fun _ => 0⟩ ⟨⟨1 / 4, 0, 0⟩, fun _ => 1⟩
      (roeEig g ⟨1, 0, 0⟩ ⟨1 / 4, 0, 0⟩ 0 1) 0 1 0 := by
    rw [e0]; linarith
  have hF3 : tracerCombine g 1 ⟨⟨1, 0, 0⟩, fun _ => 0⟩ ⟨⟨1 / 4, 0, 0⟩, fun _ => 1⟩
      (roeEig g ⟨1, 0, 0⟩ ⟨1 / 4, 0, 0⟩ 0 1) 0 1 3 = 1 / 3 *
    tracerCombine g 1 ⟨⟨1, 0, 0⟩, fun _ => 0⟩ ⟨⟨1 / 4, 0, 0⟩, fun _ => 1⟩
      (roeEig g ⟨1, 0, 0⟩ ⟨1 / 4, 0, 0⟩ 0 1) 0 1 0 := by
    rw [e0]
    refine e3.trans ?_
    ring
  refine ⟨hF3, hF0, ?_⟩
  intro dt hdt
  rw [hF3]
  have := mul_pos hdt hF0
  linarith

/-! ### C66 -/

/-- C66. Erosion and deposition in a wet cell: what the operator adds is erosion (linear in the excess of
the bed shear stress `τ` over its critical value 0.1) minus deposition (settling velocity 0.01 times
concentration, reduced linearly to zero at a stress of 1000). -/
theorem C66_exchange (P : FlowParams) {n h hu hv : ℝ} (hc : ℕ → ℝ) (src : ℝ) (j : ℕ) (hw : P.tinyH ≤ h)
    (hpos : 0 < h) :
    tracerSource P n ⟨⟨h, hu, hv⟩, hc⟩ src j =
      (let tau := 1 / 2 * 1000 * (P.g * n ^ 2 / h ^ ((1 : ℝ) / 3)) * ((hu ^ 2 + hv ^ 2) / h ^ 2)
       (1 / 1000 * ((tau - 1 / 10) / (1 / 10)) - 1 / 100 * (hc j / h) * (1 - tau / 1000) + src)) := by
  unfold tracerSource
  rw [if_pos (show h ≥ P.tinyH from hw)]
  simp only [erosionDeposition]
  have hx : h ^ (-(1 : ℝ) / 3) = 1 / h ^ ((1 : ℝ) / 3) := by
    rw [neg_div, Real.rpow_neg (le_of_lt hpos)]
    exact (one_div _).symm
  rw [hx]
  have h3 : 0 < h ^ ((1 : ℝ) / 3) := Real.rpow_pos_of_pos hpos _
  have hsq : hu / h * (hu / h) + hv / h * (hv / h) = (hu ^ 2 + hv ^ 2) / h ^ 2 := by
    field_simp
  rw [hsq, show P.g * (n * n) * (1 / h ^ ((1 : ℝ) / 3)) = P.g * n ^ 2 / h ^ ((1 : ℝ) / 3) by ring]
  generalize P.g * n ^ 2 / h ^ ((1 : ℝ) / 3) = Cd
  generalize (hu ^ 2 + hv ^ 2) / h ^ 2 = V
  ring

example : tracerSource exParams 0 ⟨⟨1, 3, 4⟩, fun _ => 2⟩ 5 0 = 5 - 0.001 - 0.02 := by
  have := C66_exchange exParams (n := 0) (h := 1) (hu := 3) (hv := 4) (fun _ => 2) 5 0
    (by norm_num [exParams]) (by norm_num)
  rw [this]
  norm_num

/-- C66 (disagreement). Erosion is not cut off below the critical stress: clear, still water (nothing in
suspension, no stress) loses sediment at the rate 0.001, so its concentration becomes negative after any
step. -/
theorem C66_negative_violated (P : FlowParams) (n : ℝ) {h : ℝ} (hw : P.tinyH ≤ h) (hpos : 0 < h) (j : ℕ) :
    ∀ dt > 0, 0 + dt * tracerSource P n ⟨⟨h, 0, 0⟩, fun _ => 0⟩ 0 j = -(dt / 1000) ∧
      0 + dt * tracerSource P n ⟨⟨h, 0, 0⟩, fun _ => 0⟩ 0 j < 0 := by
  intro dt hdt
  have e := C66_exchange P (n := n) (hu := 0) (hv := 0) (fun _ => 0) 0 j hw hpos
  simp only at e
  rw [e]
  have : (0 : ℝ) ^ 2 + 0 ^ 2 = 0 := by norm_num
  rw [this]
  constructor
  · ring
  · ring_nf
    linarith

example : 0 + 10 * tracerSource exParams 0.03 ⟨⟨2, 0, 0⟩, fun _ => 0⟩ 0 0 < 0 :=
  (C66_negative_violated exParams 0.03 (h := 2) (by norm_num [exParams]) (by norm_num) 0 10 (by norm_num)).2

/-- C66 (disagreement). The PETSc backend loses an external source of tracer in a dry cell, and the CEED
backend keeps it. -/
theorem C66_dry_source_violated (P : FlowParams) (n src : ℝ) (s : TCons) (j : ℕ) (hd : s.q.h < P.tinyH) :
    tracerSource P n s src j = 0 ∧ tracerSourceCeed P n s src j = src := by
  unfold tracerSource tracerSourceCeed
  rw [if_neg (not_le.mpr hd), if_neg (not_lt.mpr (le_of_lt hd)), zero_add]
  exact ⟨rfl, rfl⟩

/-- C66. In cells deeper than `tiny_h` the two backends add the same. -/
theorem C66_backends_partial (P : FlowParams) (n src : ℝ) (s : TCons) (j : ℕ) (hw : P.tinyH < s.q.h) :
    tracerSource P n s src j = tracerSourceCeed P n s src j := by
  unfold tracerSource tracerSourceCeed
  rw [if_pos (le_of_lt hw), if_pos hw]

example : exParams.tinyH < (⟨⟨1, 0, 0⟩, fun _ => 2⟩ : TCons).q.h := by norm_num [exParams]

/-! ### C67 -/

/-- C67. On one process, where owned and local numbers agree, a run with tracers uses the Manning
coefficient of the cell itself. -/
theorem C67_serial_partial (pm : PMesh) (hser : ∀ c < pm.numCells, pm.l2o c = c) (mann : ℕ → ℝ) :
    ∀ c < pm.numCells, mann (tracerManningIndex pm c) = mann (flowManningIndex pm c) := by
  intro c hc
  unfold tracerManningIndex flowManningIndex
  rw [hser c hc]

example : (fun c : ℕ => (c : ℝ)) (tracerManningIndex (exSquares 0) 1) = 1 := by
  have := C67_serial_partial (exSquares 0) (fun c _ => rfl) (fun c => (c : ℝ)) 1 (by norm_num [exSquares])
  refine this.trans ?_
  norm_num [flowManningIndex, exSquares]

/-- two local cells of which only the second is owned -/
noncomputable def exGhostFirst : PMesh where
  numCells := 2
  area _ := 1
  owned c := c == 1
  l2o _ := 0
  internal := []
  boundary := []
  dzdx _ := 0
  dzdy _ := 0
  zc _ := 0

/-- C67 (disagreement). Where a ghost cell precedes an owned one, a run with tracers reads the coefficient of
another cell – here even past the end of the vector, which has one entry. -/
theorem C67_parallel_violated :
    exGhostFirst.owned 1 = true ∧ flowManningIndex exGhostFirst 1 = 0 ∧
      tracerManningIndex exGhostFirst 1 = 1 ∧
      ((List.range exGhostFirst.numCells).filter exGhostFirst.owned).length = 1 := by
  refine ⟨rfl, rfl, rfl, ?_⟩
  simp [exGhostFirst, List.range_succ]

theorem exMesh_pos (p : Fin 2) :
    PosMesh (exMesh p) [⟨0, 1, 0, if p = 0 then -1 else 1, .reflecting⟩] where
  len := by intro e he; simp only [exMesh, List.mem_singleton] at he; subst he; norm_num
  blen := by intro e he; rw [List.mem_singleton] at he; subst he; norm_num
  area := by intro c _; norm_num [exMesh]
  left := (exPartitioned.valid p).left
  right := (exPartitioned.valid p).right
  cell := exMesh_bnd p

/-- clean and polluted water on two processes; a step short enough exists -/
example (U : ℕ → TCons) (hU : U = fun c => ⟨⟨1, 1, 0⟩, fun _ => if c = 0 then 0 else 0.5⟩) :
    ∃ dt U', 0 < dt ∧ TransportStep .upwind exParams 1 exMesh
      (fun p => [⟨0, 1, 0, if p = 0 then -1 else 1, .reflecting⟩]) exGid dt U U' ∧
      (U' 1).hc 0 ≤ 0.5 * (U' 1).q.h := by
  have hn : ∀ p : Fin 2, 0 ≤ outRate exParams (exMesh p)
      [⟨0, 1, 0, if p = 0 then -1 else 1, .reflecting⟩] (fun c => U (exGid p c)) 0 := fun p =>
    outRate_nonneg (exMesh_pos p) _ (by norm_num [exMesh])
  set r : Fin 2 → ℝ := fun p => outRate exParams (exMesh p)
      [⟨0, 1, 0, if p = 0 then -1 else 1, .reflecting⟩] (fun c => U (exGid p c)) 0 with hr
  have hp : 0 < 1 + r 0 + r 1 := by have := hn 0; have := hn 1; linarith
  have hle : ∀ p, (1 / (1 + r 0 + r 1)) * r p ≤ 1 := by
    intro p
    rw [one_div, inv_mul_le_iff₀ hp]
    have := hn 0; have := hn 1
    fin_cases p
    · simp only [Fin.zero_eta]; linarith
    · simp only [Fin.mk_one]; linarith
  obtain ⟨U', hs⟩ := exTransport .upwind 1 (1 / (1 + r 0 + r 1)) U (fun c => by rw [hU]; norm_num)
  refine ⟨1 / (1 + r 0 + r 1), U', by positivity, hs, ?_⟩
  refine (C64_stays (P := exParams) (n := 1) (pm := exMesh) (gid := exGid)
    (bnd := fun p => [⟨0, 1, 0, if p = 0 then -1 else 1, .reflecting⟩]) (j := 0) (m := 0) (M := 0.5)
    (by norm_num) exPartitioned.inj exMesh_pos (by norm_num [exParams]) exMesh_own ?_
    (fun _ => 1 / (1 + r 0 + r 1)) (fun i => if i = 0 then U else U') 1 (fun _ => by positivity) ?_ ?_ ?_ ?_ 1 0
    (by norm_num [exMesh])).2
  · intro p e he
    rw [List.mem_singleton] at he
    subst he
    trivial
  · intro i hi p c _
    have : i = 0 := by omega
    subst this
    right
    simp only [if_true, hU, exParams]
    norm_num
  · intro i hi p c _ ho
    have : i = 0 := by omega
    subst this
    simp only [exMesh, beq_iff_eq] at ho
    subst ho
    have h1 : (U (exGid p 0)).q.h = 1 := by rw [hU]
    simp only [if_true]
    rw [h1]
    exact hle p
  · intro p c _
    simp only [if_true, hU]
    split <;> norm_num
  · intro i hi
    have : i = 0 := by omega
    subst this
    exact hs

end RDy
