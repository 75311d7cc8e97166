import Verif.Props.Decomposition
import Verif.Props.LakeAtRest

/-!
C77: uniform flow on a slope. Where the state is the same on both sides of every edge of a cell, the
fluxes cancel: the depth changes by the water sources only, gravity pulls the water downhill with
`g h ∇z`, and the flow is steady exactly if it satisfies Manning's equation.
-/

namespace RDy

/-! ### Specification -/

/-- Across every edge of cell `c` the state is the same as in `c`: the neighbours are in the same state and
prescribed boundary values are those of the cell. -/
def UniformAround (pm : PMesh) (u : ℕ → Cons) (c : ℕ) : Prop :=
  (∀ e ∈ pm.internal, ∀ r, e.right = some r → e.left = c ∨ r = c → u e.left = u c ∧ u r = u c) ∧
  ∀ e ∈ pm.boundary, e.cell = c → e.bc = .dirichlet (u c)

/-- Manning's equation in both directions: the friction slope `n² |u| u / h^(4/3)` of the flow balances the
slope of the bed, `h` being the depth and `(hu, hv)` the discharge. -/
def ManningFlow (n : ℝ) (q : Cons) (dzdx dzdy : ℝ) : Prop :=
  n ^ 2 * √((q.hu / q.h) ^ 2 + (q.hv / q.h) ^ 2) * (q.hu / q.h) / q.h ^ (4 / 3 : ℝ) = -dzdx ∧
  n ^ 2 * √((q.hu / q.h) ^ 2 + (q.hv / q.h) ^ 2) * (q.hv / q.h) / q.h ^ (4 / 3 : ℝ) = -dzdy

/-! ### Fluxes of a uniform state -/

/-- the flux through an edge with the same state on both sides -/
noncomputable def uniFlux (P : FlowParams) (q : Cons) (cn sn : ℝ) : Flux :=
  if q.h < P.tinyH then Flux.zero else physFlux P.g (velocities P.tinyH P.hAnuga q) cn sn

theorem usedFlux_uniform {P : FlowParams} (hg : 0 < P.g) (ht : 0 < P.tinyH) (q : Cons) (sn cn : ℝ) :
    usedFlux P.g P.tinyH (velocities P.tinyH P.hAnuga q) (velocities P.tinyH P.hAnuga q) sn cn =
      some (uniFlux P q cn sn) := by
  unfold usedFlux uniFlux
  rw [velocities_h]
  by_cases h : q.h < P.tinyH
  · rw [if_pos h, if_neg (by simp [h])]
    rfl
  · rw [if_neg h, if_pos (by simp [h])]
    rw [C36_consistent _ cn sn hg (by rw [velocities_h]; linarith)]
    rfl

theorem uniFlux_lin {k : Flux → ℝ} (hk : LinF k) (P : FlowParams) (q : Cons) (cn sn : ℝ) :
    k (uniFlux P q cn sn) = k (uniFlux P q 1 0) * cn + k (uniFlux P q 0 1) * sn := by
  unfold uniFlux
  by_cases h : q.h < P.tinyH
  · simp only [if_pos h, hk.zero]; ring
  · simp only [if_neg h]
    rw [← hk.smul, ← hk.smul, ← hk.add]
    congr 1
    ext <;> simp only [physFlux, Flux.add, Flux.smul] <;> ring

theorem sum_map_lin {α : Type} (d x y : α → ℝ) (a b : ℝ) :
    ∀ l : List α, (∀ e ∈ l, d e = a * x e + b * y e) →
      (l.map d).sum = a * (l.map x).sum + b * (l.map y).sum
  | [], _ => by simp
  | e :: l, h => by
      simp only [List.map_cons, List.sum_cons]
      rw [h e (by simp), sum_map_lin d x y a b l fun e he => h e (by simp [he])]
      ring

/-- The fluxes through the edges of a cell surrounded by its own state add up to zero. -/
theorem uniform_divergence {P : FlowParams} {pm : PMesh} {u : ℕ → Cons} {f1 fd : ℕ → Flux}
    (hg : 0 < P.g) (ht : 0 < P.tinyH) (hinj : OwnedInj pm) (hv : EdgesValid pm) (hcl : ClosedCells pm)
    {c : ℕ} (hc : c < pm.numCells) (ho : pm.owned c = true) (hu : UniformAround pm u c)
    (h1 : applyInterior P pm u (fun _ => Flux.zero) = some f1) (h2 : applyBoundary P pm u f1 = some fd) :
    fd (pm.l2o c) = Flux.zero := by
  have key : ∀ k : Flux → ℝ, LinF k → k (fd (pm.l2o c)) = 0 := by
    intro k hk
    have h1' : pm.internal.foldlM (edgeStep P false pm u) (fun _ => Flux.zero) = some f1 := by
      rw [← interior_fold]; exact h1
    have s1 := foldlM_sum (edgeStep P false pm u) (fun f => k (f (pm.l2o c)))
      (edgeCell P false pm u c k) pm.internal _ _
      (fun f e f' he hs => edgeStep_cell hk hinj hv u hc ho f f' e he hs) h1'
    have s2 := foldlM_sum (boundaryEdge P pm u) (fun f => k (f (pm.l2o c)))
      (bndCell P pm u c k) pm.boundary _ _
      (fun f e f' he hs => boundaryEdge_cell hk hinj hv u hc ho f f' e he hs) h2
    rw [s2, s1, hk.zero, zero_add]
    have e1 := sum_map_lin (edgeCell P false pm u c k)
      (fun e : IEdge => match e.right with
        | none => 0
        | some r => (if e.left = c then e.len * e.cn else 0) - if r = c then e.len * e.cn else 0)
      (fun e : IEdge => match e.right with
        | none => 0
        | some r => (if e.left = c then e.len * e.sn else 0) - if r = c then e.len * e.sn else 0)
      (-k (uniFlux P (u c) 1 0) / pm.area c) (-k (uniFlux P (u c) 0 1) / pm.area c) pm.internal
      (by
        intro e he
        unfold edgeCell
        cases hr : e.right with
        | none => simp
        | some r =>
          simp only []
          by_cases hx : e.left = c ∨ r = c
          · obtain ⟨ul, ur⟩ := hu.1 e he r hr hx
            have hp : localPair P false pm u e r = some (uniFlux P (u c) e.cn e.sn, uniFlux P (u c) e.cn e.sn) := by
              simp only [localPair, facePair, Bool.false_eq_true, if_false]
              rw [ul, ur, usedFlux_uniform hg ht]
              rfl
            rw [hp]
            simp only [Option.getD_some]
            rw [uniFlux_lin hk]
            by_cases a : e.left = c <;> by_cases b : r = c <;> simp only [a, b, if_true, if_false] <;> ring
          · push Not at hx
            rw [if_neg hx.1, if_neg hx.2, if_neg hx.1, if_neg hx.2, if_neg hx.1, if_neg hx.2]
            ring)
    have e2 := sum_map_lin (bndCell P pm u c k)
      (fun e : BEdge => if e.cell = c then e.len * e.cn else 0)
      (fun e : BEdge => if e.cell = c then e.len * e.sn else 0)
      (-k (uniFlux P (u c) 1 0) / pm.area c) (-k (uniFlux P (u c) 0 1) / pm.area c) pm.boundary
      (by
        intro e he
        unfold bndCell
        by_cases hx : e.cell = c
        · simp only [if_pos hx]
          have hp : bndFlux P u e = uniFlux P (u c) e.cn e.sn := by
            unfold bndFlux
            rw [hu.2 e he hx, hx]
            simp only [boundaryStates]
            rw [usedFlux_uniform hg ht]
            rfl
          rw [hp, uniFlux_lin hk]
          ring
        · simp only [if_neg hx]; ring)
    rw [e1, e2]
    obtain ⟨k1, k2⟩ := hcl c hc ho
    unfold closureI closureB at k1 k2
    linear_combination (-k (uniFlux P (u c) 1 0) / pm.area c) * k1 +
      (-k (uniFlux P (u c) 0 1) / pm.area c) * k2
  ext
  · exact key _ linF_m
  · exact key _ linF_x
  · exact key _ linF_y

/-! ### C77 -/

/-- C77. In a cell surrounded by its own state (any state, any shape of the cell, either friction method)
the depth changes exactly by the water source, and the momentum by gravity `-g h ∇z`, the external
momentum source and the friction term, which is that of a cell without flux divergence. -/
theorem C77_uniform_flow {P : FlowParams} {m : FrictionMethod} {pm : PMesh} {dt : ℝ} {src : ℕ → Flux}
    {mann : ℕ → ℝ} {u : ℕ → Cons} {f : ℕ → Flux} (hg : 0 < P.g) (ht : 0 < P.tinyH) (hinj : OwnedInj pm)
    (hv : EdgesValid pm) (hcl : ClosedCells pm) (h : rhs P m false pm dt src mann u = some f)
    {c : ℕ} (hc : c < pm.numCells) (ho : pm.owned c = true) (hu : UniformAround pm u c) :
    ∃ tx ty, friction P m dt (mann (pm.l2o c)) (u c) 0 0 (P.g * (u c).h * pm.dzdx c)
        (P.g * (u c).h * pm.dzdy c) = some (tx, ty) ∧
      f (pm.l2o c) = ⟨(src (pm.l2o c)).m,
        -(P.g * (u c).h * pm.dzdx c) - tx + (src (pm.l2o c)).x,
        -(P.g * (u c).h * pm.dzdy c) - ty + (src (pm.l2o c)).y⟩ := by
  unfold rhs at h
  simp only [Bool.false_eq_true, if_false, Option.bind_eq_some_iff, Bool.not_false] at h
  obtain ⟨f1, h1, fd, h2, h3⟩ := h
  have hz := uniform_divergence hg ht hinj hv hcl hc ho hu h1 h2
  obtain ⟨t, e1, e2⟩ := applySource_cell hinj h3 hc ho
  have b1 : (bedTerm P true (pm.dzdx c) (pm.dzdy c) (u c).h).1 = P.g * (u c).h * pm.dzdx c := by
    simp only [bedTerm, if_true]; ring
  have b2 : (bedTerm P true (pm.dzdx c) (pm.dzdy c) (u c).h).2 = P.g * (u c).h * pm.dzdy c := by
    simp only [bedTerm, if_true]; ring
  rw [hz, b1, b2] at e1 e2
  refine ⟨t.1, t.2, e1, ?_⟩
  rw [e2]
  ext <;> simp [Flux.add, Flux.zero]

/-- C77. Water at rest that is equally deep all around starts to move downhill: without momentum sources
the discharge after a (small or large) time step with semi-implicit friction points against the gradient
of the bed and has exactly magnitude `dt g h |∇z|`; on a level bed the water stays at rest. -/
theorem C77_downhill {P : FlowParams} {pm : PMesh} {dt : ℝ} {src : ℕ → Flux} {mann : ℕ → ℝ}
    {u : ℕ → Cons} {f : ℕ → Flux} (hg : 0 < P.g) (ht : 0 < P.tinyH) (hinj : OwnedInj pm)
    (hv : EdgesValid pm) (hcl : ClosedCells pm)
    (h : rhs P .semiImplicit false pm dt src mann u = some f) {c : ℕ} (hc : c < pm.numCells)
    (ho : pm.owned c = true) (hu : UniformAround pm u c) (hr : (u c).hu = 0 ∧ (u c).hv = 0)
    (hs : (src (pm.l2o c)).x = 0 ∧ (src (pm.l2o c)).y = 0) :
    (u c).hu + dt * (f (pm.l2o c)).x = -(dt * P.g * (u c).h) * pm.dzdx c ∧
    (u c).hv + dt * (f (pm.l2o c)).y = -(dt * P.g * (u c).h) * pm.dzdy c := by
  obtain ⟨tx, ty, e1, e2⟩ := C77_uniform_flow hg ht hinj hv hcl h hc ho hu
  have : tx = 0 ∧ ty = 0 := by
    simp only [friction] at e1
    unfold frictionSemiImplicit at e1
    by_cases hq : (u c).h ≥ P.tinyH
    · rw [if_pos hq] at e1
      have hh : (u c).h ≠ 0 := by intro hh; linarith
      simp [hr.1, hr.2, hh] at e1
      exact ⟨e1.1.symm, e1.2.symm⟩
    · rw [if_neg hq] at e1
      simp only [Option.some.injEq, Prod.mk.injEq] at e1
      exact ⟨e1.1.symm, e1.2.symm⟩
  rw [e2, hr.1, hr.2, hs.1, hs.2, this.1, this.2]
  constructor <;> ring

theorem manning_iff {n g h q dz s : ℝ} (hg : 0 < g) (hh : 0 < h) :
    n ^ 2 * s * (q / h) / h ^ (4 / 3 : ℝ) = -dz ↔ q * (g * n ^ 2 * s / h ^ (4 / 3 : ℝ)) = -(g * h * dz) := by
  have hp : 0 < h ^ (4 / 3 : ℝ) := Real.rpow_pos_of_pos hh _
  constructor
  · intro e
    have : -(g * h * dz) = g * h * (-dz) := by ring
    rw [this, ← e]
    field_simp
  · intro e
    have : -dz = -(g * h * dz) / (g * h) := by field_simp
    rw [this, ← e]
    field_simp

/-- C77. Manning's equation is the steady state: with semi-implicit friction a wet cell surrounded by its
own state, without external momentum sources, keeps its momentum over a time step of any length exactly if
the flow satisfies Manning's equation for the slope of its bed. -/
theorem C77_manning {P : FlowParams} {pm : PMesh} {dt : ℝ} {src : ℕ → Flux} {mann : ℕ → ℝ}
    {u : ℕ → Cons} {f : ℕ → Flux} (hg : 0 < P.g) (ht : 0 < P.tinyH) (hdt : 0 ≤ dt) (hinj : OwnedInj pm)
    (hv : EdgesValid pm) (hcl : ClosedCells pm)
    (h : rhs P .semiImplicit false pm dt src mann u = some f) {c : ℕ} (hc : c < pm.numCells)
    (ho : pm.owned c = true) (hu : UniformAround pm u c) (hw : P.tinyH ≤ (u c).h)
    (hs : (src (pm.l2o c)).x = 0 ∧ (src (pm.l2o c)).y = 0) :
    ((f (pm.l2o c)).x = 0 ∧ (f (pm.l2o c)).y = 0) ↔
      ManningFlow (mann (pm.l2o c)) (u c) (pm.dzdx c) (pm.dzdy c) := by
  obtain ⟨tx, ty, e1, e2⟩ := C77_uniform_flow hg ht hinj hv hcl h hc ho hu
  have hh : 0 < (u c).h := lt_of_lt_of_le ht hw
  unfold ManningFlow
  rw [manning_iff hg hh, manning_iff hg hh, e2, hs.1, hs.2]
  simp only [friction] at e1
  unfold frictionSemiImplicit at e1
  rw [if_pos hw] at e1
  have htb : P.g * (mann (pm.l2o c) * mann (pm.l2o c)) * (u c).h ^ (-(1 : ℝ) / 3) *
      √((u c).hu / (u c).h * ((u c).hu / (u c).h) + (u c).hv / (u c).h * ((u c).hv / (u c).h)) / (u c).h =
      P.g * mann (pm.l2o c) ^ 2 * √(((u c).hu / (u c).h) ^ 2 + ((u c).hv / (u c).h) ^ 2) /
        (u c).h ^ (4 / 3 : ℝ) := by
    have := rpow_third_div hh
    rw [← pow_two, ← pow_two, ← pow_two]
    rw [mul_assoc, mul_comm ((u c).h ^ _), ← mul_assoc, mul_div_assoc, this]
    ring
  rw [htb] at e1
  have hp : 0 < (u c).h ^ (4 / 3 : ℝ) := Real.rpow_pos_of_pos hh _
  have ht0 : 0 ≤ P.g * mann (pm.l2o c) ^ 2 *
      √(((u c).hu / (u c).h) ^ 2 + ((u c).hv / (u c).h) ^ 2) / (u c).h ^ (4 / 3 : ℝ) := by positivity
  generalize P.g * mann (pm.l2o c) ^ 2 *
      √(((u c).hu / (u c).h) ^ 2 + ((u c).hv / (u c).h) ^ 2) / (u c).h ^ (4 / 3 : ℝ) = tb at *
  have hd : 0 < 1 + dt * tb := by positivity
  simp only [ne_of_gt hh, ne_of_gt hd, false_or, if_false, Option.some.injEq, Prod.mk.injEq, mul_zero,
    add_zero] at e1
  rw [← e1.1, ← e1.2]
  have key : ∀ q b : ℝ, -b - (q - dt * b) * (tb / (1 + dt * tb)) + 0 = 0 ↔ q * tb = -b := by
    intro q b
    have : -b - (q - dt * b) * (tb / (1 + dt * tb)) + 0 = -(b + q * tb) / (1 + dt * tb) := by
      field_simp
      ring
    rw [this, div_eq_zero_iff]
    constructor
    · rintro (h | h)
      · linarith
      · exact absurd h (ne_of_gt hd)
    · intro h; left; linarith
  simp only [key]

theorem sqrt_sum_zero {a b : ℝ} (h : √(a ^ 2 + b ^ 2) = 0) : a = 0 ∧ b = 0 := by
  have := Real.sqrt_eq_zero'.mp h
  have ha := sq_nonneg a
  have hb := sq_nonneg b
  exact ⟨pow_eq_zero_iff (two_ne_zero) |>.mp (by linarith), pow_eq_zero_iff (two_ne_zero) |>.mp (by linarith)⟩

/-- C77, for the implicit method XQ2018 wherever it applies its formula for fast friction. -/
theorem C77_manning_xq {P : FlowParams} {pm : PMesh} {dt : ℝ} {src : ℕ → Flux} {mann : ℕ → ℝ}
    {u : ℕ → Cons} {f : ℕ → Flux} (hg : 0 < P.g) (ht : 0 < P.tinyH) (hx : 0 < P.xqThreshold) (hdt : 0 < dt)
    (hinj : OwnedInj pm) (hv : EdgesValid pm) (hcl : ClosedCells pm)
    (h : rhs P .xq2018 false pm dt src mann u = some f) {c : ℕ} (hc : c < pm.numCells)
    (ho : pm.owned c = true) (hu : UniformAround pm u c) (hw : P.tinyH ≤ (u c).h)
    (hs : (src (pm.l2o c)).x = 0 ∧ (src (pm.l2o c)).y = 0)
    (hlam : P.xqThreshold ≤ dt * (P.g * mann (pm.l2o c) ^ 2 / (u c).h ^ (7 / 3 : ℝ) *
      √(((u c).hu - dt * (P.g * (u c).h * pm.dzdx c)) ^ 2 +
        ((u c).hv - dt * (P.g * (u c).h * pm.dzdy c)) ^ 2))) :
    ((f (pm.l2o c)).x = 0 ∧ (f (pm.l2o c)).y = 0) ↔
      ManningFlow (mann (pm.l2o c)) (u c) (pm.dzdx c) (pm.dzdy c) := by
  obtain ⟨tx, ty, e1, e2⟩ := C77_uniform_flow hg ht hinj hv hcl h hc ho hu
  have hh : 0 < (u c).h := lt_of_lt_of_le ht hw
  unfold ManningFlow
  rw [manning_iff hg hh, manning_iff hg hh, e2, hs.1, hs.2]
  simp only [friction] at e1
  generalize hq : u c = q at *
  generalize mann (pm.l2o c) = n at *
  have emx : q.hu - dt * (P.g * q.h * pm.dzdx c) = q.hu + dt * (0 - P.g * q.h * pm.dzdx c) := by ring
  have emy : q.hv - dt * (P.g * q.h * pm.dzdy c) = q.hv + dt * (0 - P.g * q.h * pm.dzdy c) := by ring
  obtain ⟨k, tx', ty', e1', hk0, hk1, i1, i2, i3, i4⟩ :=
    C45_implicit (n := n) q 0 0 _ _ _ _ ht hw hx emx emy hlam
  rw [e1'] at e1
  simp only [Option.some.injEq, Prod.mk.injEq] at e1
  obtain ⟨rfl, rfl⟩ := e1
  simp only [stepMomentum, zero_sub] at i1 i2 i3 i4
  -- `K |Q|` is the coefficient of Manning's equation
  have h73 : q.h ^ (7 / 3 : ℝ) = q.h ^ (4 / 3 : ℝ) * q.h := by
    rw [← Real.rpow_add_one (ne_of_gt hh)]; norm_num
  have hp : 0 < q.h ^ (4 / 3 : ℝ) := Real.rpow_pos_of_pos hh _
  have hsq : √((q.hu / q.h) ^ 2 + (q.hv / q.h) ^ 2) = √(q.hu ^ 2 + q.hv ^ 2) / q.h := by
    have : (q.hu / q.h) ^ 2 + (q.hv / q.h) ^ 2 = (q.hu ^ 2 + q.hv ^ 2) / q.h ^ 2 := by field_simp
    rw [this, Real.sqrt_div (by positivity), Real.sqrt_sq (le_of_lt hh)]
  have hK : P.g * n ^ 2 * √((q.hu / q.h) ^ 2 + (q.hv / q.h) ^ 2) / q.h ^ (4 / 3 : ℝ) =
      P.g * n ^ 2 / q.h ^ (7 / 3 : ℝ) * √(q.hu ^ 2 + q.hv ^ 2) := by
    rw [hsq, h73]; field_simp
  rw [hK]
  unfold manning at i1 i2
  have hK0 : 0 ≤ P.g * n ^ 2 / q.h ^ (7 / 3 : ℝ) := by rw [h73]; positivity
  generalize P.g * n ^ 2 / q.h ^ (7 / 3 : ℝ) = K at *
  generalize P.g * q.h * pm.dzdx c = bx at *
  generalize P.g * q.h * pm.dzdy c = bY at *
  constructor
  · rintro ⟨z1, z2⟩
    have w1 : q.hu + dt * (-bx - tx') = q.hu := by linear_combination dt * z1
    have w2 : q.hv + dt * (-bY - ty') = q.hv := by linear_combination dt * z2
    rw [w1, w2] at i1 i2
    constructor
    · apply mul_left_cancel₀ (ne_of_gt hdt); linear_combination i1
    · apply mul_left_cancel₀ (ne_of_gt hdt); linear_combination i2
  · rintro ⟨m1, m2⟩
    set S := √(q.hu ^ 2 + q.hv ^ 2) with hS
    have hS0 : 0 ≤ S := Real.sqrt_nonneg _
    set s := dt * K * S with hs'
    have hs0 : 0 ≤ s := by positivity
    have p1 : q.hu - dt * bx = (1 + s) * q.hu := by rw [hs']; linear_combination dt * -m1
    have p2 : q.hv - dt * bY = (1 + s) * q.hv := by rw [hs']; linear_combination dt * -m2
    rw [p1] at i3
    rw [p2] at i4
    have hk' : k * (1 + s) = 1 ∨ S = 0 := by
      by_cases hSz : S = 0
      · right; exact hSz
      left
      have hSp : 0 < S := lt_of_le_of_ne hS0 (Ne.symm hSz)
      have hM : √((q.hu + dt * (-bx - tx')) ^ 2 + (q.hv + dt * (-bY - ty')) ^ 2) = k * (1 + s) * S := by
        rw [i3, i4, hS]
        have : (k * ((1 + s) * q.hu)) ^ 2 + (k * ((1 + s) * q.hv)) ^ 2 =
            (k * (1 + s)) ^ 2 * (q.hu ^ 2 + q.hv ^ 2) := by ring
        rw [this, Real.sqrt_mul (by positivity), Real.sqrt_sq (by positivity)]
      rw [hM, i3, p1] at i1
      rw [hM, i4, p2] at i2
      have hne : q.hu ≠ 0 ∨ q.hv ≠ 0 := by
        by_contra hcon
        push Not at hcon
        apply hSz
        rw [hS, hcon.1, hcon.2]; simp
      have hroot : k * (1 + s) = 1 + s - s * (k * (1 + s)) ^ 2 := by
        rcases hne with hn | hn
        · apply mul_right_cancel₀ hn
          rw [hs'] at i1 ⊢
          linear_combination i1
        · apply mul_right_cancel₀ hn
          rw [hs'] at i2 ⊢
          linear_combination i2
      have hy : 0 < k * (1 + s) := by positivity
      generalize k * (1 + s) = y at *
      have : (y - 1) * (1 + s * (y + 1)) = 0 := by linear_combination hroot
      rcases mul_eq_zero.mp this with h0 | h0
      · linarith
      · have : 0 < 1 + s * (y + 1) := by positivity
        linarith
    have fin : q.hu + dt * (-bx - tx') = q.hu ∧ q.hv + dt * (-bY - ty') = q.hv := by
      rw [i3, i4]
      rcases hk' with h1 | h1
      · exact ⟨by linear_combination q.hu * h1, by linear_combination q.hv * h1⟩
      · obtain ⟨a1, a2⟩ := sqrt_sum_zero (hS ▸ h1 : √(q.hu ^ 2 + q.hv ^ 2) = 0)
        rw [a1, a2]; simp
    constructor
    · apply mul_left_cancel₀ (ne_of_gt hdt); linear_combination fin.1
    · apply mul_left_cancel₀ (ne_of_gt hdt); linear_combination fin.2

/-! ### Example: one square cell on a slope -/

/-- a square cell of depth 1, roughness 1/10 and discharge 2 down the slope 1/25, with the same state
prescribed at its four edges -/
noncomputable def exSlope : PMesh where
  numCells := 1
  area _ := 1
  owned _ := true
  l2o c := c
  internal := []
  boundary := [⟨0, 1, 0, -1, .dirichlet ⟨1, 2, 0⟩⟩, ⟨0, 1, 1, 0, .dirichlet ⟨1, 2, 0⟩⟩,
    ⟨0, 1, -1, 0, .dirichlet ⟨1, 2, 0⟩⟩, ⟨0, 1, 0, 1, .dirichlet ⟨1, 2, 0⟩⟩]
  dzdx _ := -1 / 25
  dzdy _ := 0
  zc _ := 0

noncomputable def exSlopeP : FlowParams := ⟨10, 1 / 1000, 0, 1 / 100⟩

theorem exSlope_hyps : OwnedInj exSlope ∧ EdgesValid exSlope ∧ ClosedCells exSlope ∧
    UniformAround exSlope (fun _ => ⟨1, 2, 0⟩) 0 := by
  refine ⟨fun _ _ _ _ _ _ h => h, ⟨?_, ?_, ?_, ?_⟩, ?_, ?_, ?_⟩
  · intro e he; simp [exSlope] at he
  · intro e he; simp [exSlope] at he
  · intro e he
    simp [exSlope] at he
    rcases he with h | h | h | h <;> subst h <;> simp [exSlope]
  · intro c hc; simp [exSlope]
  · intro c hc _
    have : c = 0 := by simp [exSlope] at hc; omega
    subst this
    constructor <;> simp [closureI, closureB, exSlope]
  · intro e he; simp [exSlope] at he
  · intro e he _
    simp [exSlope] at he
    rcases he with h | h | h | h <;> subst h <;> rfl

theorem exSlope_manning : ManningFlow (1 / 10) ⟨1, 2, 0⟩ (-1 / 25) 0 := by
  constructor
  · have : √(((2 : ℝ) / 1) ^ 2 + (0 / 1) ^ 2) = 2 := by
      rw [show ((2 : ℝ) / 1) ^ 2 + (0 / 1) ^ 2 = 2 ^ 2 by norm_num, Real.sqrt_sq (by norm_num)]
    simp only [this, Real.one_rpow]
    norm_num
  · norm_num

theorem applyBoundary_uniform {P : FlowParams} (hg : 0 < P.g) (ht : 0 < P.tinyH) (pm : PMesh) (u : ℕ → Cons)
    (hb : ∀ e ∈ pm.boundary, e.bc = .dirichlet (u e.cell)) (f : ℕ → Flux) :
    (applyBoundary P pm u f).isSome := by
  apply foldlM_isSome
  intro f e he
  unfold boundaryEdge
  rw [hb e he]
  simp only [boundaryStates]
  rw [usedFlux_uniform hg ht]
  by_cases ho : pm.owned e.cell = true
  · rw [if_pos ho]; rfl
  · rw [if_neg ho]; rfl

/-- the right-hand side is defined in the example, for both friction methods and every time step -/
theorem exSlope_rhs (m : FrictionMethod) {dt : ℝ} (hdt : 0 ≤ dt) (src : ℕ → Flux) :
    ∃ f, rhs exSlopeP m false exSlope dt src (fun _ => 1 / 10) (fun _ => ⟨1, 2, 0⟩) = some f := by
  have hb := applyBoundary_uniform (P := exSlopeP) (by norm_num [exSlopeP]) (by norm_num [exSlopeP]) exSlope
    (fun _ => ⟨1, 2, 0⟩) (by
      intro e he
      simp [exSlope] at he
      rcases he with h | h | h | h <;> subst h <;> rfl) (fun _ => Flux.zero)
  obtain ⟨fd, hfd⟩ := Option.isSome_iff_exists.mp hb
  have hi : applyInterior exSlopeP exSlope (fun _ => ⟨1, 2, 0⟩) (fun _ => Flux.zero) =
      some (fun _ => Flux.zero) := rfl
  unfold rhs
  simp only [Bool.false_eq_true, if_false, hi, Option.bind_some, hfd]
  apply Option.isSome_iff_exists.mp
  apply foldlM_isSome
  intro f c hc
  unfold sourceCell
  have ho : exSlope.owned c = true := rfl
  rw [if_pos ho, Option.isSome_map]
  apply friction_isSome <;> first | exact hdt | norm_num [exSlopeP]

/-- C77: the hypotheses of the theorems can be met by a moving flow that satisfies Manning's equation: it
stays as it is, while rain of intensity 3 raises its level at the rate 3. -/
example : ∃ f, rhs exSlopeP .semiImplicit false exSlope 5 (fun _ => ⟨3, 0, 0⟩) (fun _ => 1 / 10)
    (fun _ => ⟨1, 2, 0⟩) = some f ∧ f 0 = ⟨3, 0, 0⟩ := by
  obtain ⟨f, hf⟩ := exSlope_rhs .semiImplicit (dt := 5) (by norm_num) (fun _ => ⟨3, 0, 0⟩)
  obtain ⟨h1, h2, h3, h4⟩ := exSlope_hyps
  have hz := (C77_manning (c := 0) (by norm_num [exSlopeP]) (by norm_num [exSlopeP]) (by norm_num) h1 h2 h3 hf
    (by simp [exSlope]) rfl h4 (by norm_num [exSlopeP]) ⟨rfl, rfl⟩).mpr exSlope_manning
  obtain ⟨tx, ty, -, hm⟩ := C77_uniform_flow (c := 0) (by norm_num [exSlopeP]) (by norm_num [exSlopeP]) h1 h2 h3
    hf (by simp [exSlope]) rfl h4
  refine ⟨f, hf, ?_⟩
  have hl : exSlope.l2o 0 = 0 := rfl
  rw [hl] at hz hm
  ext
  · rw [hm]
  · exact hz.1
  · exact hz.2

/-- C77: the same flow is steady for XQ2018. -/
example : ∃ f, rhs exSlopeP .xq2018 false exSlope 5 (fun _ => ⟨3, 0, 0⟩) (fun _ => 1 / 10)
    (fun _ => ⟨1, 2, 0⟩) = some f ∧ (f 0).x = 0 ∧ (f 0).y = 0 := by
  obtain ⟨f, hf⟩ := exSlope_rhs .xq2018 (dt := 5) (by norm_num) (fun _ => ⟨3, 0, 0⟩)
  obtain ⟨h1, h2, h3, h4⟩ := exSlope_hyps
  refine ⟨f, hf, (C77_manning_xq (c := 0) (by norm_num [exSlopeP]) (by norm_num [exSlopeP])
    (by norm_num [exSlopeP]) (by norm_num) h1 h2 h3 hf (by simp [exSlope]) rfl h4 (by norm_num [exSlopeP])
    ⟨rfl, rfl⟩ ?_).mpr exSlope_manning⟩
  have : √((2 - 5 * (10 * 1 * (-1 / 25)) : ℝ) ^ 2 + (0 - 5 * (10 * 1 * 0)) ^ 2) = 4 := by
    rw [show (2 - 5 * (10 * 1 * (-1 / 25)) : ℝ) ^ 2 + (0 - 5 * (10 * 1 * 0)) ^ 2 = 4 ^ 2 by norm_num,
      Real.sqrt_sq (by norm_num)]
  simp only [exSlopeP, exSlope, this, Real.one_rpow]
  norm_num

/-- C77: the same water at rest starts to flow with `dt g h` times the slope. -/
example : ∀ f, rhs exSlopeP .semiImplicit false
      { exSlope with boundary := exSlope.boundary.map fun e => { e with bc := .dirichlet ⟨1, 0, 0⟩ } } 5
      (fun _ => ⟨0, 0, 0⟩) (fun _ => 1 / 10) (fun _ => ⟨1, 0, 0⟩) = some f → 5 * (f 0).x = 2 := by
  intro f hf
  have h1 := C77_downhill (c := 0) (by norm_num [exSlopeP]) (by norm_num [exSlopeP])
    (fun _ _ _ _ _ _ h => h) (by
      refine ⟨?_, ?_, ?_, ?_⟩
      · intro e he; simp [exSlope] at he
      · intro e he; simp [exSlope] at he
      · intro e he
        simp [exSlope] at he
        rcases he with h | h | h | h <;> subst h <;> simp [exSlope]
      · intro c hc; simp [exSlope]) (by
      intro c hc _
      have : c = 0 := by simp [exSlope] at hc; omega
      subst this
      constructor <;> simp [closureI, closureB, exSlope]) hf (by simp [exSlope]) rfl (by
      refine ⟨?_, ?_⟩
      · intro e he; simp [exSlope] at he
      · intro e he _
        simp [exSlope] at he
        rcases he with h | h | h | h <;> subst h <;> rfl) ⟨rfl, rfl⟩ ⟨rfl, rfl⟩
  have := h1.1
  simp only [exSlope, exSlopeP] at this
  norm_num at this
  linarith

end RDy
