import Verif.Lemmas.Roe

/-!
C36–C40: the Roe solver (`/repo/src/swe/swe_roe_flux_petsc.h`) and the boundary states; C61
(supercritical flow), C62 (reported wave speed), C63 (critical outflow).
-/

namespace RDy

/-! ### Specification -/

/-- The physical flux of the shallow-water equations through an edge with normal `(nx, ny)`:
`h (u·n)` and `h (u·n) u + g h²/2 n`. -/
noncomputable def physFlux (g : ℝ) (q : Prim) (nx ny : ℝ) : Flux :=
  ⟨q.h * (q.u * nx + q.v * ny),
   q.h * (q.u * nx + q.v * ny) * q.u + g * q.h ^ 2 / 2 * nx,
   q.h * (q.u * nx + q.v * ny) * q.v + g * q.h ^ 2 / 2 * ny⟩

/-- The same flux seen from the other side of the edge. -/
def Flux.opp (F : Flux) : Flux := ⟨-F.m, -F.x, -F.y⟩

theorem sideFlux_phys (g : ℝ) (q : Prim) (sn cn : ℝ) : sideFlux g q sn cn = physFlux g q cn sn := by
  unfold sideFlux physFlux uperp
  ext <;> simp only <;> ring

/-! ### C36 -/

/-- C36. Equal wet states on both sides: the numerical flux is the physical flux, and the wave speed is
`√(g h) + |u·n|`. -/
theorem C36_consistent {g : ℝ} (q : Prim) (nx ny : ℝ) (hg : 0 < g) (hq : 0 < q.h) :
    roeFlux g q q ny nx = some (physFlux g q nx ny, √(g * q.h) + |q.u * nx + q.v * ny|) := by
  have hd : RoeDefined q.h q.h := ⟨le_of_lt hq, le_of_lt hq, by linarith⟩
  have hc := roeC_pos hg hd
  unfold roeFlux
  rw [if_pos hd]
  have e : 0.5 * g * (q.h + q.h) = g * q.h := by ring
  congr 2
  · ext
    · simp only [roeCombine, sideFlux, physFlux, roeEig, roeAvg_same hq, uperp]
      field_simp
      ring
    · simp only [roeCombine, sideFlux, physFlux, roeEig, roeAvg_same hq, uperp]
      field_simp
      ring
    · simp only [roeCombine, sideFlux, physFlux, roeEig, roeAvg_same hq, uperp]
      field_simp
      ring
  · simp only [roeEig, roeAvg_same hq, uperp, roeC, e]

example : roeFlux 9.806 ⟨2, 1, -1⟩ ⟨2, 1, -1⟩ 0.8 0.6 =
    some (physFlux 9.806 ⟨2, 1, -1⟩ 0.6 0.8, √(9.806 * 2) + |(1 : ℝ) * 0.6 + -1 * 0.8|) :=
  C36_consistent ⟨2, 1, -1⟩ 0.6 0.8 (by norm_num) (by norm_num)

/-! ### C37 -/

theorem roeEig_swap (g : ℝ) (L R : Prim) (sn cn : ℝ) :
    roeEig g R L (-sn) (-cn) =
      { a1 := (roeEig g L R sn cn).a3, a2 := (roeEig g L R sn cn).a2,
        a3 := (roeEig g L R sn cn).a1, w1 := -(roeEig g L R sn cn).w3,
        w2 := (roeEig g L R sn cn).w2, w3 := -(roeEig g L R sn cn).w1,
        uhat := (roeEig g L R sn cn).uhat, vhat := (roeEig g L R sn cn).vhat,
        chat := (roeEig g L R sn cn).chat, amax := (roeEig g L R sn cn).amax } := by
  unfold roeEig
  simp only [roeAvg_comm L.h R.h, roeC_comm g L.h R.h, uperp_neg]
  congr 1
  · congr 1
    · rw [← abs_neg]; congr 1; ring
    · congr 1; ring
  · rw [abs_neg]
  · congr 1
    · rw [← abs_neg]; congr 1; ring
    · congr 1; ring
  · unfold uperp; ring
  · ring
  · unfold uperp; ring
  · rw [abs_neg]

/-- C37. Computed from the other side (states swapped, normal reversed), the flux is exactly the
opposite and the wave speed is the same, for all states, including those where it is undefined. -/
theorem C37_antisymmetric (g : ℝ) (L R : Prim) (nx ny : ℝ) :
    roeFlux g R L (-ny) (-nx) = (roeFlux g L R ny nx).map fun r => (r.1.opp, r.2) := by
  unfold roeFlux
  by_cases h : RoeDefined L.h R.h
  · rw [if_pos h, if_pos (roeDefined_comm.mpr h), roeEig_swap]
    simp only [Option.map_some]
    congr 2
    ext
    · simp only [roeCombine, sideFlux, Flux.opp, uperp]; ring
    · simp only [roeCombine, sideFlux, Flux.opp, uperp]; ring
    · simp only [roeCombine, sideFlux, Flux.opp, uperp]; ring
  · rw [if_neg h, if_neg (fun h2 => h (roeDefined_comm.mp h2))]
    rfl

example : roeFlux 9.806 ⟨2, 1, -1⟩ ⟨1, 0.5, 3⟩ (-0.8) (-0.6) =
    (roeFlux 9.806 ⟨1, 0.5, 3⟩ ⟨2, 1, -1⟩ 0.8 0.6).map fun r => (r.1.opp, r.2) :=
  C37_antisymmetric 9.806 _ _ 0.6 0.8

/-- C37. The flux that the operator adds to the cells (which treats dry edges separately) has the same
property. -/
theorem C37_used_antisymmetric (g tinyH : ℝ) (L R : Prim) (nx ny : ℝ) :
    usedFlux g tinyH R L (-ny) (-nx) = (usedFlux g tinyH L R ny nx).map Flux.opp := by
  unfold usedFlux
  rw [C37_antisymmetric]
  by_cases h : R.h < tinyH ∧ L.h < tinyH
  · rw [if_neg (by simpa using And.symm h), if_neg (by simpa using h)]
    simp [Flux.opp]
  · rw [if_pos (fun h2 => h (And.symm h2)), if_pos h]
    cases roeFlux g L R ny nx <;> rfl

example : usedFlux 9.806 1e-7 ⟨0, 0, 0⟩ ⟨1, 0.5, 3⟩ (-0.8) (-0.6) =
    (usedFlux 9.806 1e-7 ⟨1, 0.5, 3⟩ ⟨0, 0, 0⟩ 0.8 0.6).map Flux.opp :=
  C37_used_antisymmetric 9.806 1e-7 _ _ 0.6 0.8

/-! ### C38 -/

/-- C38. The state that the reflecting boundary condition puts outside the wall is the mirror image:
same depth, opposite normal velocity, same tangential velocity. -/
theorem C38_mirror (L : Prim) {nx ny : ℝ} (hn : nx ^ 2 + ny ^ 2 = 1) :
    (reflectRight L ny nx).h = L.h ∧
    (reflectRight L ny nx).u * nx + (reflectRight L ny nx).v * ny = -(L.u * nx + L.v * ny) ∧
    -(reflectRight L ny nx).u * ny + (reflectRight L ny nx).v * nx = -L.u * ny + L.v * nx := by
  refine ⟨rfl, ?_, ?_⟩
  · simp only [reflectRight]
    linear_combination (-(L.u * nx + L.v * ny)) * hn
  · simp only [reflectRight]
    linear_combination (-L.u * ny + L.v * nx) * hn

/-- a wall facing north-east -/
example : (reflectRight ⟨1, 2, 0⟩ 0.8 0.6).u * 0.6 + (reflectRight ⟨1, 2, 0⟩ 0.8 0.6).v * 0.8 =
    -((2 : ℝ) * 0.6 + 0 * 0.8) :=
  (C38_mirror ⟨1, 2, 0⟩ (nx := 0.6) (ny := 0.8) (by norm_num)).2.1

/-- C38. Through a reflecting wall there is no mass flux and no flux of tangential momentum; water
that does not move away from the wall exerts on it the pressure
`g h²/2 + h un² + h un √(g h)`, where `un` is the velocity towards the wall. -/
theorem C38_reflecting {g : ℝ} (L : Prim) {nx ny : ℝ} (hg : 0 < g) (hL : 0 < L.h)
    (hn : nx ^ 2 + ny ^ 2 = 1) :
    ∃ F a, roeFlux g L (reflectRight L ny nx) ny nx = some (F, a) ∧ F.m = 0 ∧
      -F.x * ny + F.y * nx = 0 ∧
      (0 ≤ L.u * nx + L.v * ny → F.x * nx + F.y * ny =
        g * L.h ^ 2 / 2 + L.h * (L.u * nx + L.v * ny) ^ 2 +
          L.h * (L.u * nx + L.v * ny) * √(g * L.h)) := by
  obtain ⟨mh, mn, mt⟩ := C38_mirror L hn
  have hd : RoeDefined L.h (reflectRight L ny nx).h :=
    ⟨le_of_lt hL, by rw [mh]; exact le_of_lt hL, by rw [mh]; linarith⟩
  have hc := roeC_pos hg hd
  refine ⟨_, _, if_pos hd, ?_⟩
  generalize hR : reflectRight L ny nx = R at *
  obtain ⟨h, u, v⟩ := R
  simp only at mh mn mt
  subst mh
  have hS : √L.h + √L.h ≠ 0 := ne_of_gt (sqrt_sum_pos hd)
  have hS2 : √L.h * √L.h = L.h := Real.mul_self_sqrt (le_of_lt hL)
  have havg : ∀ a b, roeAvg L.h L.h a b = (a + b) / 2 := by
    intro a b
    unfold roeAvg
    have := Real.sqrt_pos.mpr hL
    field_simp
    ring
  have h0 : uperp ((L.u + u) / 2) ((L.v + v) / 2) ny nx = 0 := by
    unfold uperp; linear_combination mn / 2
  have hdu : uperp (u - L.u) (v - L.v) ny nx = -2 * (L.u * nx + L.v * ny) := by
    unfold uperp; linear_combination mn
  have hdt : -(u - L.u) * ny + (v - L.v) * nx = 0 := by linear_combination mt
  have hur : uperp u v ny nx = -(L.u * nx + L.v * ny) := by
    unfold uperp; linear_combination mn
  have hul : uperp L.u L.v ny nx = L.u * nx + L.v * ny := rfl
  have hcc : roeC g L.h L.h = √(g * L.h) := by
    unfold roeC; congr 1; ring
  rw [hcc] at hc
  simp only [roeCombine, sideFlux, roeEig, havg, h0, hdu, hdt, hS2, hur, hul, hcc, zero_sub, zero_add,
    sub_self]
  generalize √(g * L.h) = c at *
  generalize hun : L.u * nx + L.v * ny = un at *
  have e1 : 2 * (-un - c - (un - c)) = -4 * un := by ring
  have e3 : 2 * (-un + c - (un + c)) = -4 * un := by ring
  rw [e1, e3, abs_neg, abs_of_pos hc]
  refine ⟨by ring, ?_, ?_⟩
  · have hx : (L.u + u) / 2 = -(ny * (-L.u * ny + L.v * nx)) := by
      have := congrArg Prim.u hR
      simp only [reflectRight] at this
      rw [← this]
      linear_combination (-(L.u / 2)) * hn
    have hy : (L.v + v) / 2 = nx * (-L.u * ny + L.v * nx) := by
      have := congrArg Prim.v hR
      simp only [reflectRight] at this
      rw [← this]
      linear_combination (-(L.v / 2)) * hn
    rw [hx, hy]
    have ht : -u * ny + v * nx = -L.u * ny + L.v * nx := by linear_combination mt
    generalize entropyFix c (max 0 (-4 * un)) = a
    linear_combination (-0.5 * un * L.h) * ht
  · intro hpos
    have : max 0 (-4 * un) = 0 := max_eq_left (by linarith)
    rw [this, entropyFix_zero (le_of_lt hc)]
    have hx : (L.u + u) / 2 * nx + (L.v + v) / 2 * ny = 0 := by
      have := h0
      unfold uperp at this
      exact this
    have huu : u * nx + v * ny = -un := mn
    have hdd : c * (L.h * (-2 * un) / c) = L.h * (-2 * un) := by
      have hc' : c ≠ 0 := ne_of_gt hc
      field_simp
    generalize L.h * (-2 * un) / c = d at *
    linear_combination (0.5 * un * L.h) * hun - (0.5 * un * L.h) * huu +
      (0.5 * g * L.h ^ 2 - 0.5 * c ^ 2 * d) * hn - (0.5 * c) * hdd

example : ∃ F a, roeFlux 9.806 ⟨2, 1, -1⟩ (reflectRight ⟨2, 1, -1⟩ 0.8 0.6) 0.8 0.6 = some (F, a) ∧
    F.m = 0 ∧ -F.x * 0.8 + F.y * 0.6 = 0 := by
  obtain ⟨F, a, h1, h2, h3, -⟩ :=
    C38_reflecting (g := 9.806) ⟨2, 1, -1⟩ (nx := 0.6) (ny := 0.8) (by norm_num) (by norm_num)
      (by norm_num)
  exact ⟨F, a, h1, h2, h3⟩

/-! ### C39 -/

/-- C39. The Roe solver returns numbers exactly for non-negative depths that are not both zero. -/
theorem C39_roe_defined (g : ℝ) (L R : Prim) (nx ny : ℝ) :
    (roeFlux g L R ny nx).isSome ↔ 0 ≤ L.h ∧ 0 ≤ R.h ∧ (L.h ≠ 0 ∨ R.h ≠ 0) := by
  have e : RoeDefined L.h R.h ↔ 0 ≤ L.h ∧ 0 ≤ R.h ∧ (L.h ≠ 0 ∨ R.h ≠ 0) := by
    unfold RoeDefined
    constructor
    · rintro ⟨a, b, c⟩
      refine ⟨a, b, ?_⟩
      by_contra hh
      push Not at hh
      rw [hh.1, hh.2] at c
      norm_num at c
    · rintro ⟨a, b, c⟩
      refine ⟨a, b, ?_⟩
      rcases c with c | c
      · have := lt_of_le_of_ne a (Ne.symm c); linarith
      · have := lt_of_le_of_ne b (Ne.symm c); linarith
  rw [← e]
  unfold roeFlux
  by_cases h : RoeDefined L.h R.h
  · rw [if_pos h]; simp [h]
  · rw [if_neg h]; simp [h]

example : (roeFlux 9.806 ⟨0, 0, 0⟩ ⟨1, 2, 3⟩ 0.8 0.6).isSome :=
  (C39_roe_defined _ _ _ _ _).mpr ⟨by norm_num, by norm_num, Or.inr (by norm_num)⟩

theorem usedFlux_isSome {g tinyH : ℝ} {L R : Prim} (nx ny : ℝ) (ht : 0 < tinyH) (hL : 0 ≤ L.h)
    (hR : 0 ≤ R.h) : (usedFlux g tinyH L R ny nx).isSome := by
  unfold usedFlux
  split
  · rename_i h
    have : (roeFlux g L R ny nx).isSome := by
      rw [C39_roe_defined]
      refine ⟨hL, hR, ?_⟩
      by_contra hh
      push Not at hh
      exact h ⟨by rw [hh.2]; exact ht, by rw [hh.1]; exact ht⟩
    cases hx : roeFlux g L R ny nx with
    | none => rw [hx] at this; simp at this
    | some r => simp
  · simp

theorem velocities_h (tinyH hAnuga : ℝ) (q : Cons) : (velocities tinyH hAnuga q).h = q.h := by
  unfold velocities; split <;> rfl

/-- C39. On an interior edge the flux added to the cells is defined for all non-negative depths. -/
theorem C39_interior_defined {tinyH : ℝ} (g hAnuga : ℝ) (qL qR : Cons) (nx ny : ℝ) (ht : 0 < tinyH)
    (hL : 0 ≤ qL.h) (hR : 0 ≤ qR.h) :
    (usedFlux g tinyH (velocities tinyH hAnuga qL) (velocities tinyH hAnuga qR) ny nx).isSome :=
  usedFlux_isSome nx ny ht (by rw [velocities_h]; exact hL) (by rw [velocities_h]; exact hR)

example : (usedFlux 9.806 1e-7 (velocities 1e-7 0 ⟨0, 0, 0⟩) (velocities 1e-7 0 ⟨0, 0, 0⟩) 0.8
    0.6).isSome :=
  C39_interior_defined _ _ _ _ _ _ (by norm_num) (by norm_num) (by norm_num)

theorem boundaryStates_nonneg {g : ℝ} (tinyH hAnuga : ℝ) (bc : BCond) (q : Cons) (sn cn : ℝ)
    (hg : 0 < g) (hq : 0 ≤ q.h) (hb : ∀ qb, bc = .dirichlet qb → 0 ≤ qb.h) :
    0 ≤ (boundaryStates g tinyH hAnuga bc q sn cn).1.h ∧
    0 ≤ (boundaryStates g tinyH hAnuga bc q sn cn).2.h := by
  have hv : 0 ≤ (velocities tinyH hAnuga q).h := by rw [velocities_h]; exact hq
  cases bc with
  | dirichlet qb =>
    refine ⟨hv, ?_⟩
    show 0 ≤ (velocities tinyH hAnuga qb).h
    rw [velocities_h]; exact hb qb rfl
  | reflecting => exact ⟨hv, hv⟩
  | outflow =>
    unfold boundaryStates outflowStates
    simp only
    split
    · simp
    · refine ⟨hv, ?_⟩
      simp only
      apply Real.rpow_nonneg
      positivity

/-- C39. On a boundary edge the flux added to the cell is defined for every kind of boundary condition
and all non-negative depths. -/
theorem C39_boundary_defined {g tinyH : ℝ} (hAnuga : ℝ) (bc : BCond) (q : Cons) (nx ny : ℝ)
    (hg : 0 < g) (ht : 0 < tinyH) (hq : 0 ≤ q.h) (hb : ∀ qb, bc = .dirichlet qb → 0 ≤ qb.h) :
    (usedFlux g tinyH (boundaryStates g tinyH hAnuga bc q ny nx).1
      (boundaryStates g tinyH hAnuga bc q ny nx).2 ny nx).isSome :=
  usedFlux_isSome nx ny ht (boundaryStates_nonneg tinyH hAnuga bc q ny nx hg hq hb).1
    (boundaryStates_nonneg tinyH hAnuga bc q ny nx hg hq hb).2

example : (usedFlux 9.806 1e-7 (boundaryStates 9.806 1e-7 0 .outflow ⟨1, -2, 0⟩ 0 1).1
    (boundaryStates 9.806 1e-7 0 .outflow ⟨1, -2, 0⟩ 0 1).2 0 1).isSome :=
  C39_boundary_defined 0 .outflow _ _ _ (by norm_num) (by norm_num) (by norm_num)
    (by intro qb h; cases h)

/-- C39 (disagreement). The flux that is accumulated for the boundary time series
(`swe_petsc.c:623`) is not guarded by the dry test: with a reflecting wall beside an exactly dry cell
it is undefined (NaN), whatever the cell's momentum. -/
theorem C39_accumulated_dry_violated (g tinyH hAnuga hu hv nx ny : ℝ) (ht : 0 < tinyH) :
    accumulatedFlux g (boundaryStates g tinyH hAnuga .reflecting ⟨0, hu, hv⟩ ny nx).1
      (boundaryStates g tinyH hAnuga .reflecting ⟨0, hu, hv⟩ ny nx).2 ny nx = none := by
  have e : velocities tinyH hAnuga ⟨0, hu, hv⟩ = ⟨0, 0, 0⟩ := if_pos ht
  unfold accumulatedFlux
  simp only [boundaryStates, e, reflectRight]
  unfold roeFlux
  rw [if_neg]
  · rfl
  · rintro ⟨-, -, h⟩
    norm_num at h

example : accumulatedFlux 9.806 (boundaryStates 9.806 1e-7 0 .reflecting ⟨0, 0, 0⟩ 0 1).1
    (boundaryStates 9.806 1e-7 0 .reflecting ⟨0, 0, 0⟩ 0 1).2 0 1 = none :=
  C39_accumulated_dry_violated _ _ _ _ _ _ _ (by norm_num)

/-- C39 (disagreement). At a critical-outflow boundary the accumulated flux is undefined in every wet
cell whose water moves away from the boundary, since both states are then set to zero. -/
theorem C39_accumulated_outflow_violated {tinyH hAnuga : ℝ} (g : ℝ) (q : Cons) (nx ny : ℝ)
    (ht : 0 < tinyH) (hq : tinyH ≤ q.h) (hu : q.hu * nx + q.hv * ny < 0) :
    accumulatedFlux g (boundaryStates g tinyH hAnuga .outflow q ny nx).1
      (boundaryStates g tinyH hAnuga .outflow q ny nx).2 ny nx = none := by
  have hh : 0 < q.h := lt_of_lt_of_le ht hq
  have hneg : uperp (velocities tinyH hAnuga q).u (velocities tinyH hAnuga q).v ny nx < 0 := by
    unfold velocities
    rw [if_neg (not_lt.mpr hq)]
    simp only [uperp]
    have hden : 0 < q.h * q.h + hAnuga * hAnuga := by
      have := mul_self_nonneg hAnuga
      have := mul_pos hh hh
      linarith
    have : q.hu * q.h / (q.h * q.h + hAnuga * hAnuga) * nx +
        q.hv * q.h / (q.h * q.h + hAnuga * hAnuga) * ny =
        (q.hu * nx + q.hv * ny) * (q.h / (q.h * q.h + hAnuga * hAnuga)) := by ring
    rw [this]
    exact mul_neg_of_neg_of_pos hu (div_pos hh hden)
  unfold accumulatedFlux
  simp only [boundaryStates, outflowStates]
  rw [if_pos hneg]
  unfold roeFlux
  rw [if_neg]
  · rfl
  · rintro ⟨-, -, h⟩
    norm_num at h

example : accumulatedFlux 9.806 (boundaryStates 9.806 1e-7 0 .outflow ⟨1, -2, 0⟩ 0 1).1
    (boundaryStates 9.806 1e-7 0 .outflow ⟨1, -2, 0⟩ 0 1).2 0 1 = none :=
  C39_accumulated_outflow_violated _ _ _ _ (by norm_num) (by norm_num) (by norm_num)

/-- C39 (disagreement). A negative depth, however small, beside a wet cell gives an undefined flux
that is added to the cells: the dry test does not exclude it (`swe_petsc.c:285`). -/
theorem C39_negative_depth_violated {tinyH : ℝ} (g hAnuga : ℝ) (qL qR : Cons) (nx ny : ℝ)
    (hL : qL.h < 0) (hR : tinyH ≤ qR.h) :
    usedFlux g tinyH (velocities tinyH hAnuga qL) (velocities tinyH hAnuga qR) ny nx = none := by
  unfold usedFlux
  rw [if_pos]
  · cases h : roeFlux g (velocities tinyH hAnuga qL) (velocities tinyH hAnuga qR) ny nx with
    | none => rfl
    | some r =>
      have := (C39_roe_defined g (velocities tinyH hAnuga qL) (velocities tinyH hAnuga qR) nx ny).mp
        (by rw [h]; rfl)
      rw [velocities_h] at this
      linarith [this.1]
  · rw [velocities_h]
    rintro ⟨h, -⟩
    linarith

example : usedFlux 9.806 1e-7 (velocities 1e-7 0 ⟨-1e-20, 0, 0⟩) (velocities 1e-7 0 ⟨1, 0, 0⟩) 0 1 =
    none :=
  C39_negative_depth_violated _ _ _ _ _ _ (by norm_num) (by norm_num)

/-! ### C40 -/

/-- C40. Let `lam1`, `lam2`, `lam3` be the characteristic speeds of the averaged state and `d1`, `d3`
twice the amounts by which the first and third characteristic speeds of the right state exceed those of
the left. The speeds used for the dissipation are at least the absolute characteristic speeds, hence
non-negative; they equal them where the speeds of the two sides diverge by no more than that; and they
never exceed the larger of the two. -/
theorem C40_dominate (g : ℝ) (L R : Prim) (nx ny lam1 lam2 lam3 d1 d3 : ℝ) (e : RoeEig)
    (he : e = roeEig g L R ny nx)
    (h1 : lam1 = (e.uhat * nx + e.vhat * ny) - e.chat) (h2 : lam2 = e.uhat * nx + e.vhat * ny)
    (h3 : lam3 = (e.uhat * nx + e.vhat * ny) + e.chat)
    (hd1 : d1 = 2 * ((R.u * nx + R.v * ny - √(g * R.h)) - (L.u * nx + L.v * ny - √(g * L.h))))
    (hd3 : d3 = 2 * ((R.u * nx + R.v * ny + √(g * R.h)) - (L.u * nx + L.v * ny + √(g * L.h)))) :
    |lam1| ≤ e.a1 ∧ e.a2 = |lam2| ∧ |lam3| ≤ e.a3 ∧
    (d1 ≤ |lam1| → e.a1 = |lam1|) ∧ (d3 ≤ |lam3| → e.a3 = |lam3|) ∧
    e.a1 ≤ max |lam1| d1 ∧ e.a3 ≤ max |lam3| d3 ∧ (0 < d1 → d1 / 2 ≤ e.a1) ∧
    (0 < d3 → d3 / 2 ≤ e.a3) := by
  have hmax : ∀ a d : ℝ, 0 ≤ a → entropyFix a (max 0 d) ≤ max a d := by
    intro a d ha
    unfold entropyFix
    split
    · rename_i hlt
      have hd0 : 0 < max 0 d := lt_of_le_of_lt ha hlt
      have hd : max 0 d = d := by
        rcases max_choice 0 d with hh | hh
        · rw [hh] at hd0; exact absurd hd0 (lt_irrefl 0)
        · exact hh
      rw [hd] at hlt hd0 ⊢
      refine le_trans ?_ (le_max_right a d)
      have : a * a / d ≤ d := by
        rw [div_le_iff₀ hd0]
        nlinarith
      linarith
    · exact le_max_left a d
  have heq : ∀ a d : ℝ, 0 ≤ a → d ≤ a → entropyFix a (max 0 d) = a :=
    fun a d ha hd => entropyFix_of_le (max_le ha hd)
  have hhalf : ∀ a d : ℝ, 0 ≤ a → 0 < d → d / 2 ≤ entropyFix a (max 0 d) := by
    intro a d ha hd
    rw [max_eq_right (le_of_lt hd)]
    unfold entropyFix
    split
    · have : 0 ≤ a * a / d := by positivity
      linarith
    · rename_i h
      push Not at h
      linarith
  subst he
  subst h1 h2 h3 hd1 hd3
  refine ⟨entropyFix_ge (abs_nonneg _), rfl, entropyFix_ge (abs_nonneg _), heq _ _ (abs_nonneg _),
    heq _ _ (abs_nonneg _), hmax _ _ (abs_nonneg _), hmax _ _ (abs_nonneg _),
    hhalf _ _ (abs_nonneg _), hhalf _ _ (abs_nonneg _)⟩

example (e : RoeEig) (he : e = roeEig 9.806 ⟨2, -1, 0⟩ ⟨1, 3, 0⟩ 0 1) :
    |(e.uhat * 1 + e.vhat * 0) - e.chat| ≤ e.a1 :=
  (C40_dominate 9.806 ⟨2, -1, 0⟩ ⟨1, 3, 0⟩ 1 0 _ _ _ _ _ e he rfl rfl rfl rfl rfl).1

/-! ### C61 -/

/-- C61. Supercritical flow is fully upwinded: if all characteristic speeds of the averaged state are
non-negative and no sonic correction applies, the numerical flux is exactly the physical flux of the
left state (the averages solve Roe's jump condition). -/
theorem C61_supercritical_left {g : ℝ} {L R : Prim} {nx ny : ℝ} (hg : 0 < g)
    (hL : 0 ≤ L.h) (hR : 0 ≤ R.h) (hs : 0 < L.h + R.h) (hn : nx ^ 2 + ny ^ 2 = 1)
    (e : RoeEig) (he : e = roeEig g L R ny nx)
    (hsup : e.chat ≤ e.uhat * nx + e.vhat * ny)
    (h1 : e.a1 = |e.uhat * nx + e.vhat * ny - e.chat|)
    (h3 : e.a3 = |e.uhat * nx + e.vhat * ny + e.chat|) :
    (roeFlux g L R ny nx).map Prod.fst = some (physFlux g L nx ny) := by
  have hd : RoeDefined L.h R.h := ⟨hL, hR, hs⟩
  have hc := roeC_pos hg hd
  have hn' : ny ^ 2 + nx ^ 2 = 1 := by linarith
  have j1 := roe_jump_mass ny nx hg hd
  have j2 := roe_jump_x hg hd hn'
  have j3 := roe_jump_y hg hd hn'
  rw [sideFlux_phys, sideFlux_phys] at j1 j2 j3
  unfold roeFlux
  rw [if_pos hd, sideFlux_phys, sideFlux_phys, ← he]
  rw [← he] at j1 j2 j3
  have eu : roeAvg L.h R.h L.u R.u = e.uhat := by rw [he]; rfl
  have ev : roeAvg L.h R.h L.v R.v = e.vhat := by rw [he]; rfl
  have ec : roeC g L.h R.h = e.chat := by rw [he]; rfl
  have ea2 : e.a2 = |e.uhat * nx + e.vhat * ny| := by rw [he]; rfl
  rw [eu, ev, ec] at j1 j2 j3
  rw [ec] at hc
  simp only [uperp] at j1 j2 j3
  have hu : 0 ≤ e.uhat * nx + e.vhat * ny := by linarith
  rw [abs_of_nonneg (by linarith)] at h1
  rw [abs_of_nonneg (by linarith)] at h3
  rw [abs_of_nonneg hu] at ea2
  simp only [Option.map_some]
  congr 1
  ext
  · simp only [roeCombine]
    rw [h1, ea2, h3]
    linear_combination 0.5 * j1
  · simp only [roeCombine]
    rw [h1, ea2, h3]
    linear_combination 0.5 * j2
  · simp only [roeCombine]
    rw [h1, ea2, h3]
    linear_combination 0.5 * j3

/-- The eigen data of two equal states of depth `h` (used in examples). -/
theorem roeEig_same {g : ℝ} {q : Prim} (nx ny : ℝ) (hq : 0 < q.h) :
    (roeEig g q q ny nx).uhat = q.u ∧ (roeEig g q q ny nx).vhat = q.v ∧
    (roeEig g q q ny nx).chat = √(g * q.h) ∧
    (roeEig g q q ny nx).a1 = |q.u * nx + q.v * ny - √(g * q.h)| ∧
    (roeEig g q q ny nx).a3 = |q.u * nx + q.v * ny + √(g * q.h)| := by
  have e : roeC g q.h q.h = √(g * q.h) := by unfold roeC; congr 1; ring
  refine ⟨roeAvg_same hq, roeAvg_same hq, e, ?_, ?_⟩
  · show entropyFix _ _ = _
    rw [roeAvg_same hq, roeAvg_same hq, e, sub_self, mul_zero, max_self, entropyFix_zero (abs_nonneg _)]
    rfl
  · show entropyFix _ _ = _
    rw [roeAvg_same hq, roeAvg_same hq, e, sub_self, mul_zero, max_self, entropyFix_zero (abs_nonneg _)]
    rfl

/-- C61. Likewise, if all characteristic speeds are non-positive the flux is that of the right state.
-/
theorem C61_supercritical_right {g : ℝ} {L R : Prim} {nx ny : ℝ} (hg : 0 < g)
    (hL : 0 ≤ L.h) (hR : 0 ≤ R.h) (hs : 0 < L.h + R.h) (hn : nx ^ 2 + ny ^ 2 = 1)
    (e : RoeEig) (he : e = roeEig g L R ny nx)
    (hsup : e.uhat * nx + e.vhat * ny ≤ -e.chat)
    (h1 : e.a1 = |e.uhat * nx + e.vhat * ny - e.chat|)
    (h3 : e.a3 = |e.uhat * nx + e.vhat * ny + e.chat|) :
    (roeFlux g L R ny nx).map Prod.fst = some (physFlux g R nx ny) := by
  have hsw := roeEig_swap g R L (-ny) (-nx)
  simp only [neg_neg] at hsw
  have hswap := C37_antisymmetric g R L (-nx) (-ny)
  simp only [neg_neg] at hswap
  rw [hswap]
  have hE := roeEig_swap g L R ny nx
  have := C61_supercritical_left (g := g) (L := R) (R := L) (nx := -nx) (ny := -ny) hg hR hL
    (by linarith) (by linarith [sq_nonneg nx, neg_sq nx, neg_sq ny]) (roeEig g R L (-ny) (-nx)) rfl
  rw [hE, ← he] at this
  simp only at this
  have key := this (by linarith) (by rw [h3, ← abs_neg]; congr 1; ring)
    (by rw [h1, ← abs_neg]; congr 1; ring)
  rw [Option.map_map]
  cases hx : roeFlux g R L (-ny) (-nx) with
  | none => rw [hx] at key; simp at key
  | some r =>
    rw [hx] at key
    simp only [Option.map_some, Option.some.injEq] at key
    simp only [Option.map_some, Function.comp, key]
    congr 1
    simp only [Flux.opp, physFlux]
    ext <;> simp only <;> ring

/-- A genuinely two-sided supercritical case: depths 1 and 1, velocities 10 and 9. -/
example : (roeFlux 9.806 ⟨1, 10, 0⟩ ⟨1, 9, 0⟩ 0 1).map Prod.fst =
    some (physFlux 9.806 ⟨1, 10, 0⟩ 1 0) := by
  have hc : roeC 9.806 1 1 = √9.806 := by unfold roeC; norm_num
  have hb : √(9.806 : ℝ) ≤ 4 := by
    rw [Real.sqrt_le_left (by norm_num)]; norm_num
  have hp : 0 ≤ √(9.806 : ℝ) := Real.sqrt_nonneg _
  have ha : ∀ a b : ℝ, roeAvg 1 1 a b = (a + b) / 2 := by
    intro a b; unfold roeAvg; rw [Real.sqrt_one]; ring
  refine C61_supercritical_left (by norm_num) (by norm_num) (by norm_num) (by norm_num) (by norm_num)
    (roeEig 9.806 ⟨1, 10, 0⟩ ⟨1, 9, 0⟩ 0 1) rfl ?_ ?_ ?_
  · simp only [roeEig, hc, ha]; linarith
  · simp only [roeEig, hc, ha, uperp]
    rw [entropyFix_of_le]
    apply max_le (abs_nonneg _)
    refine le_trans ?_ (abs_nonneg _)
    norm_num
  · simp only [roeEig, hc, ha, uperp]
    rw [entropyFix_of_le]
    apply max_le (abs_nonneg _)
    refine le_trans ?_ (abs_nonneg _)
    norm_num

example : (roeFlux 9.806 ⟨1, -10, 0⟩ ⟨1, -10, 0⟩ 0 1).map Prod.fst =
    some (physFlux 9.806 ⟨1, -10, 0⟩ 1 0) := by
  obtain ⟨e1, e2, e3, e4, e5⟩ := roeEig_same (g := 9.806) (q := ⟨1, -10, 0⟩) 1 0 (by norm_num)
  refine C61_supercritical_right (by norm_num) (by norm_num) (by norm_num) (by norm_num) (by norm_num)
    _ rfl ?_ (by rw [e4, e1, e2, e3]) (by rw [e5, e1, e2, e3])
  rw [e1, e2, e3]
  have hb : √((9.806 : ℝ) * 1) ≤ 4 := by
    rw [Real.sqrt_le_left (by norm_num)]; norm_num
  simp only
  linarith

/-! ### C62 -/

/-- C62 (holds without sonic correction). The wave speed reported for the Courant number bounds the
speeds used in the flux as long as these are the plain characteristic speeds. -/
theorem C62_wave_speed_partial (g : ℝ) (L R : Prim) (nx ny : ℝ) (e : RoeEig)
    (he : e = roeEig g L R ny nx)
    (h1 : e.a1 = |e.uhat * nx + e.vhat * ny - e.chat|)
    (h3 : e.a3 = |e.uhat * nx + e.vhat * ny + e.chat|) :
    e.a1 ≤ e.amax ∧ e.a2 ≤ e.amax ∧ e.a3 ≤ e.amax := by
  have hc : 0 ≤ e.chat := by rw [he]; exact Real.sqrt_nonneg _
  have ea2 : e.a2 = |e.uhat * nx + e.vhat * ny| := by rw [he]; rfl
  have eam : e.amax = e.chat + |e.uhat * nx + e.vhat * ny| := by rw [he]; rfl
  rw [h1, h3, ea2, eam]
  generalize e.uhat * nx + e.vhat * ny = u
  refine ⟨?_, by linarith, ?_⟩
  · have := abs_sub u e.chat
    rw [abs_of_nonneg hc] at this
    linarith
  · have := abs_add_le u e.chat
    rw [abs_of_nonneg hc] at this
    linarith

example : (roeEig 9.806 ⟨2, 1, 0⟩ ⟨2, 1, 0⟩ 0 1).a1 ≤ (roeEig 9.806 ⟨2, 1, 0⟩ ⟨2, 1, 0⟩ 0 1).amax := by
  obtain ⟨e1, e2, e3, e4, e5⟩ := roeEig_same (g := 9.806) (q := ⟨2, 1, 0⟩) 1 0 (by norm_num)
  exact (C62_wave_speed_partial 9.806 _ _ 1 0 _ rfl (by rw [e4, e1, e2, e3])
    (by rw [e5, e1, e2, e3])).1

/-- C62 (disagreement). With the sonic correction the speed used in the flux can exceed the reported
one many times: two bodies of water of equal depth 1 moving apart at speed 10 on each side have reported
speed `√g < 4`, but the flux uses a speed of at least 20. The Courant number, and the adaptive time step
computed from it, do not see this. -/
theorem C62_wave_speed_violated :
    (roeEig 9.806 ⟨1, -10, 0⟩ ⟨1, 10, 0⟩ 0 1).amax < 4 ∧
    20 ≤ (roeEig 9.806 ⟨1, -10, 0⟩ ⟨1, 10, 0⟩ 0 1).a1 ∧
    20 ≤ (roeEig 9.806 ⟨1, -10, 0⟩ ⟨1, 10, 0⟩ 0 1).a3 := by
  have hc : roeC 9.806 1 1 = √9.806 := by unfold roeC; norm_num
  have hb : √(9.806 : ℝ) < 4 := by
    rw [Real.sqrt_lt' (by norm_num)]; norm_num
  have ha : ∀ a b : ℝ, roeAvg 1 1 a b = (a + b) / 2 := by
    intro a b; unfold roeAvg; rw [Real.sqrt_one]; ring
  have h := C40_dominate 9.806 ⟨1, -10, 0⟩ ⟨1, 10, 0⟩ 1 0 _ _ _ _ _ _ rfl rfl rfl rfl rfl rfl
  obtain ⟨-, -, -, -, -, -, -, h8, h9⟩ := h
  refine ⟨?_, ?_, ?_⟩
  · simp only [roeEig, hc, ha, uperp]
    have h0 : |((-10 + 10) / 2 * 1 + (0 + 0) / 2 * 0 : ℝ)| = 0 := by norm_num
    rw [h0, add_zero]
    exact hb
  · refine le_trans ?_ (h8 (by norm_num))
    norm_num
  · refine le_trans ?_ (h9 (by norm_num))
    norm_num

/-! ### C63 -/

/-- The critical state outside an outflow boundary carries the discharge of the cell: with `y` the
square root of its depth, `√g y³ = h un`. -/
theorem outflow_critical {g h un : ℝ} (hg : 0 < g) (hh : 0 ≤ h) (hu : 0 ≤ un) :
    √g * (√((h * |un| * (h * |un|) / g) ^ (1 / 3 : ℝ)) *
      ((h * |un| * (h * |un|) / g) ^ (1 / 3 : ℝ))) = h * un := by
  rw [abs_of_nonneg hu]
  have hq : 0 ≤ h * un := by positivity
  have hz : 0 ≤ h * un * (h * un) / g := by positivity
  generalize hD : (h * un * (h * un) / g) ^ (1 / 3 : ℝ) = D
  have hD0 : 0 ≤ D := by rw [← hD]; exact Real.rpow_nonneg hz _
  have hD3 : D ^ 3 = h * un * (h * un) / g := by
    rw [← hD, ← Real.rpow_natCast, ← Real.rpow_mul hz]
    norm_num
  have hsq : (√g * (√D * D)) ^ 2 = (h * un) ^ 2 := by
    have e : (√g * (√D * D)) ^ 2 = (√g * √g) * ((√D * √D) * D ^ 2) := by ring
    rw [e, Real.mul_self_sqrt (le_of_lt hg), Real.mul_self_sqrt hD0]
    have : D * D ^ 2 = D ^ 3 := by ring
    rw [this, hD3]
    field_simp
  have hp : 0 ≤ √g * (√D * D) := by positivity
  exact (pow_left_inj₀ hp hq (by norm_num)).mp hsq

/-- C63. Water never enters through a critical-outflow boundary: for every cell state the flux added to
the cell is defined, its mass part is non-negative, and it is at least the discharge of the cell
towards the boundary; it is exactly that discharge if the flow there is supercritical. -/
theorem C63_outflow {g tinyH hAnuga : ℝ} (q : Cons) {nx ny : ℝ} (hg : 0 < g) (ht : 0 < tinyH)
    (hq : 0 ≤ q.h) (hn : nx ^ 2 + ny ^ 2 = 1) (p : Prim) (hp : p = velocities tinyH hAnuga q)
    (S : Prim × Prim) (hS : S = boundaryStates g tinyH hAnuga .outflow q ny nx) :
    ∃ F, usedFlux g tinyH S.1 S.2 ny nx = some F ∧ 0 ≤ F.m ∧
      p.h * (p.u * nx + p.v * ny) ≤ F.m ∧
      (0 ≤ p.u * nx + p.v * ny → g * p.h ≤ (p.u * nx + p.v * ny) ^ 2 →
        F.m = p.h * (p.u * nx + p.v * ny)) := by
  have hph : p.h = q.h := by rw [hp, velocities_h]
  have hS' : S = outflowStates g p ny nx := by rw [hS, hp]; rfl
  by_cases hneg : uperp p.u p.v ny nx < 0
  · unfold outflowStates at hS'
    rw [if_pos hneg] at hS'
    have hneg' : p.u * nx + p.v * ny < 0 := hneg
    refine ⟨⟨0, 0, 0⟩, ?_, le_refl 0, ?_, ?_⟩
    · rw [hS']
      unfold usedFlux
      rw [if_neg]
      simp only [not_not]
      exact ⟨ht, ht⟩
    · have : 0 ≤ p.h := by rw [hph]; exact hq
      exact mul_nonpos_of_nonneg_of_nonpos this (le_of_lt hneg')
    · intro h; linarith
  · unfold outflowStates at hS'
    rw [if_neg hneg] at hS'
    push Not at hneg
    have hph0 : 0 ≤ p.h := by rw [hph]; exact hq
    have hcrit := outflow_critical (h := p.h) hg hph0 hneg
    have hDdef : 0 ≤ (p.h * |uperp p.u p.v ny nx| * (p.h * |uperp p.u p.v ny nx|) / g) ^ (1 / 3 : ℝ) :=
      Real.rpow_nonneg (by positivity) _
    simp only at hS'
    generalize hD :
      (p.h * |uperp p.u p.v ny nx| * (p.h * |uperp p.u p.v ny nx|) / g) ^ (1 / 3 : ℝ) = D at *
    have hun : p.u * nx + p.v * ny = uperp p.u p.v ny nx := rfl
    rw [hun]
    by_cases hdry : p.h < tinyH
    · have hu0 : uperp p.u p.v ny nx = 0 := by
        have : p = ⟨q.h, 0, 0⟩ := by
          rw [hp]; unfold velocities; rw [if_pos (by rw [← hph]; exact hdry)]
        rw [this]; simp [uperp]
      have hD0 : D = 0 := by
        rw [← hD, hu0]; simp
      refine ⟨⟨0, 0, 0⟩, ?_, le_refl 0, ?_, ?_⟩
      · rw [hS']
        unfold usedFlux
        rw [if_neg]
        simp only [not_not, hD0]
        exact ⟨ht, hdry⟩
      · rw [hu0]; simp
      · intro _ _; rw [hu0]; simp
    · push Not at hdry
      have hh : 0 < p.h := lt_of_lt_of_le ht hdry
      have hd : RoeDefined p.h D := ⟨hph0, hDdef, by linarith⟩
      have hfl : usedFlux g tinyH S.1 S.2 ny nx =
          (roeFlux g p ⟨D, √(g * D) * nx, √(g * D) * ny⟩ ny nx).map Prod.fst := by
        rw [hS']
        unfold usedFlux
        rw [if_pos]
        rintro ⟨-, h⟩
        linarith
      have hc := roeC_pos hg hd
      have hc2 := roeC_sq hg hd
      have hjm := roe_jump_mass (L := p) (R := ⟨D, √(g * D) * nx, √(g * D) * ny⟩) ny nx hg hd
      -- square roots
      have hx : 0 < √p.h := Real.sqrt_pos.mpr hh
      have hxx : √p.h * √p.h = p.h := Real.mul_self_sqrt hph0
      have hy : 0 ≤ √D := Real.sqrt_nonneg D
      have hyy : √D * √D = D := Real.mul_self_sqrt hDdef
      have hgm : 0 < √g := Real.sqrt_pos.mpr hg
      have hgg : √g * √g = g := Real.mul_self_sqrt (le_of_lt hg)
      have hgD : √(g * D) = √g * √D := Real.sqrt_mul (le_of_lt hg) D
      have hgL : √(g * p.h) = √g * √p.h := Real.sqrt_mul (le_of_lt hg) p.h
      have hunR : uperp (√(g * D) * nx) (√(g * D) * ny) ny nx = √g * √D := by
        unfold uperp
        rw [hgD]
        linear_combination (√g * √D) * hn
      -- fluxes of both sides are the discharge
      have hFL : (sideFlux g p ny nx).m = p.h * uperp p.u p.v ny nx := by
        simp only [sideFlux]; ring
      have hFR : (sideFlux g ⟨D, √(g * D) * nx, √(g * D) * ny⟩ ny nx).m =
          p.h * uperp p.u p.v ny nx := by
        simp only [sideFlux, hunR]
        rw [← hcrit]; ring
      have huhat : uperp (roeAvg p.h D p.u (√(g * D) * nx)) (roeAvg p.h D p.v (√(g * D) * ny)) ny nx =
          (√p.h * uperp p.u p.v ny nx + √D * (√g * √D)) / (√p.h + √D) := by
        rw [← hunR]
        unfold roeAvg uperp
        ring
      have hmul : √p.h * √p.h * uperp p.u p.v ny nx = √g * (√D * √D * √D) := by
        rw [hxx, ← hcrit, hyy]; ring
      have huhat2 : (√p.h * uperp p.u p.v ny nx + √D * (√g * √D)) / (√p.h + √D) =
          √g * (√D * √D) / √p.h := by
        have : √p.h + √D ≠ 0 := ne_of_gt (by linarith)
        rw [div_eq_div_iff this (ne_of_gt hx)]
        linear_combination hmul
      have hflux : (roeFlux g p ⟨D, √(g * D) * nx, √(g * D) * ny⟩ ny nx).map Prod.fst =
          some (roeCombine (sideFlux g p ny nx) (sideFlux g ⟨D, √(g * D) * nx, √(g * D) * ny⟩ ny nx)
            (roeEig g p ⟨D, √(g * D) * nx, √(g * D) * ny⟩ ny nx) ny nx) := by
        unfold roeFlux
        rw [if_pos hd]
        rfl
      refine ⟨_, hfl.trans hflux, ?_⟩
      have hm : (roeCombine (sideFlux g p ny nx)
          (sideFlux g ⟨D, √(g * D) * nx, √(g * D) * ny⟩ ny nx)
            (roeEig g p ⟨D, √(g * D) * nx, √(g * D) * ny⟩ ny nx) ny nx).m =
          p.h * uperp p.u p.v ny nx -
          0.5 * ((roeEig g p ⟨D, √(g * D) * nx, √(g * D) * ny⟩ ny nx).a1 *
            (roeEig g p ⟨D, √(g * D) * nx, √(g * D) * ny⟩ ny nx).w1 +
            (roeEig g p ⟨D, √(g * D) * nx, √(g * D) * ny⟩ ny nx).a3 *
            (roeEig g p ⟨D, √(g * D) * nx, √(g * D) * ny⟩ ny nx).w3) := by
        simp only [roeCombine]
        rw [hFL, hFR]
        ring
      have hqn : 0 ≤ p.h * uperp p.u p.v ny nx := mul_nonneg hph0 hneg
      rw [hFL, hFR, sub_self, huhat, huhat2] at hjm
      have hdu : uperp (√(g * D) * nx - p.u) (√(g * D) * ny - p.v) ny nx =
          √g * √D - uperp p.u p.v ny nx := by
        rw [← hunR]; unfold uperp; ring
      -- supercritical case: the flux is the discharge
      have hsuper : √p.h ≤ √D → (roeCombine (sideFlux g p ny nx)
          (sideFlux g ⟨D, √(g * D) * nx, √(g * D) * ny⟩ ny nx)
            (roeEig g p ⟨D, √(g * D) * nx, √(g * D) * ny⟩ ny nx) ny nx).m =
          p.h * uperp p.u p.v ny nx := by
        intro hxy
        have hle : roeC g p.h D ≤ √g * (√D * √D) / √p.h := by
          have h1 : roeC g p.h D ≤ √g * √D := by
            refine le_of_sq_le_sq' ?_ (by positivity)
            have : (√g * √D) ^ 2 = g * (√D * √D) := by
              rw [mul_pow, sq, hgg, sq]
            rw [this, sq, hc2]
            have : p.h ≤ √D * √D := by
              rw [← hxx]; exact mul_self_le_mul_self (le_of_lt hx) hxy
            rw [hyy] at this ⊢
            have h2 := mul_le_mul_of_nonneg_left this (le_of_lt hg)
            linarith only [h2]
          refine le_trans h1 ?_
          rw [le_div_iff₀ hx]
          rw [mul_assoc]
          exact mul_le_mul_of_nonneg_left (mul_le_mul_of_nonneg_left hxy hy) (le_of_lt hgm)
        have hUL : √g * √D ≤ uperp p.u p.v ny nx := by
          have h1 : √p.h * √p.h * (√g * √D) ≤ √p.h * √p.h * uperp p.u p.v ny nx := by
            rw [hmul]
            have : √p.h * √p.h ≤ √D * √D := mul_self_le_mul_self (le_of_lt hx) hxy
            have := mul_le_mul_of_nonneg_right this (by positivity : 0 ≤ √g * √D)
            linarith
          exact le_of_mul_le_mul_left h1 (by positivity)
        have ha1 : (roeEig g p ⟨D, √(g * D) * nx, √(g * D) * ny⟩ ny nx).a1 =
            √g * (√D * √D) / √p.h - roeC g p.h D := by
          simp only [roeEig]
          rw [huhat, huhat2, hunR, hgD, hgL, abs_of_nonneg (by linarith)]
          apply entropyFix_of_le
          apply max_le (by linarith)
          have h2 : √g * √p.h ≤ √g * √D := mul_le_mul_of_nonneg_left hxy (le_of_lt hgm)
          linarith
        have ha3 : (roeEig g p ⟨D, √(g * D) * nx, √(g * D) * ny⟩ ny nx).a3 =
            √g * (√D * √D) / √p.h + roeC g p.h D := by
          simp only [roeEig]
          rw [huhat, huhat2, hunR, hgD, hgL, abs_of_nonneg (by linarith)]
          apply entropyFix_of_le
          apply max_le (by linarith)
          have h2 : √g * √D + √g * √D ≤ uperp p.u p.v ny nx + √g * √p.h := by
            have h3 : √p.h * √p.h * (√g * √D + √g * √D) ≤
                √p.h * √p.h * (uperp p.u p.v ny nx + √g * √p.h) := by
              have e : √p.h * √p.h * (uperp p.u p.v ny nx + √g * √p.h) =
                  √g * (√D * √D * √D + √p.h * √p.h * √p.h) := by rw [mul_add, hmul]; ring
              rw [e]
              have : 0 ≤ √g * ((√D - √p.h) * (√D * √D + √D * √p.h - √p.h * √p.h)) := by
                apply mul_nonneg (le_of_lt hgm)
                apply mul_nonneg (sub_nonneg.mpr hxy)
                have h4 : √p.h * √p.h ≤ √D * √p.h := mul_le_mul_of_nonneg_right hxy (le_of_lt hx)
                have h5 : 0 ≤ √D * √D := mul_nonneg hy hy
                linarith only [h4, h5]
              linarith only [this]
            exact le_of_mul_le_mul_left h3 (by positivity)
          linarith
        rw [hm, ha1, ha3]
        linear_combination 0.5 * hjm
      -- subcritical case: both waves carry water out
      have hsub : √D ≤ √p.h → p.h * uperp p.u p.v ny nx ≤ (roeCombine (sideFlux g p ny nx)
          (sideFlux g ⟨D, √(g * D) * nx, √(g * D) * ny⟩ ny nx)
            (roeEig g p ⟨D, √(g * D) * nx, √(g * D) * ny⟩ ny nx) ny nx).m := by
        intro hxy
        have hUL : uperp p.u p.v ny nx ≤ √g * √D := by
          have h1 : √p.h * √p.h * uperp p.u p.v ny nx ≤ √p.h * √p.h * (√g * √D) := by
            rw [hmul]
            have : √D * √D ≤ √p.h * √p.h := mul_self_le_mul_self hy hxy
            have := mul_le_mul_of_nonneg_right this (by positivity : 0 ≤ √g * √D)
            linarith
          exact le_of_mul_le_mul_left h1 (by positivity)
        have hDh : D ≤ p.h := by rw [← hxx, ← hyy]; exact mul_self_le_mul_self hy hxy
        have hw1 : (roeEig g p ⟨D, √(g * D) * nx, √(g * D) * ny⟩ ny nx).w1 ≤ 0 := by
          simp only [roeEig, hdu]
          have : 0 ≤ √p.h * √D * (√g * √D - uperp p.u p.v ny nx) / roeC g p.h D := by
            apply div_nonneg _ (le_of_lt hc)
            apply mul_nonneg (by positivity)
            linarith
          linarith
        have hU0 : 0 ≤ √g * (√D * √D) / √p.h := by positivity
        have hle : √g * (√D * √D) / √p.h ≤ roeC g p.h D := by
          have h1 : √g * √D ≤ roeC g p.h D := by
            refine le_of_sq_le_sq' ?_ (le_of_lt hc)
            have : (√g * √D) ^ 2 = g * (√D * √D) := by
              rw [mul_pow, sq, hgg, sq]
            rw [this, sq, hc2, hyy]
            have h2 := mul_le_mul_of_nonneg_left hDh (le_of_lt hg)
            linarith only [h2]
          refine le_trans ?_ h1
          rw [div_le_iff₀ hx]
          rw [mul_assoc]
          exact mul_le_mul_of_nonneg_left (mul_le_mul_of_nonneg_left hxy hy) (le_of_lt hgm)
        have hw3 : (roeEig g p ⟨D, √(g * D) * nx, √(g * D) * ny⟩ ny nx).w3 ≤ 0 := by
          have h1 : (√g * (√D * √D) / √p.h + roeC g p.h D) *
              (roeEig g p ⟨D, √(g * D) * nx, √(g * D) * ny⟩ ny nx).w3 ≤ 0 := by
            have h2 : 0 ≤ (√g * (√D * √D) / √p.h - roeC g p.h D) *
                (roeEig g p ⟨D, √(g * D) * nx, √(g * D) * ny⟩ ny nx).w1 :=
              mul_nonneg_of_nonpos_of_nonpos (by linarith) hw1
            linarith
          by_contra hpos
          push Not at hpos
          have := mul_pos (by linarith : 0 < √g * (√D * √D) / √p.h + roeC g p.h D) hpos
          linarith
        have ha1 : 0 ≤ (roeEig g p ⟨D, √(g * D) * nx, √(g * D) * ny⟩ ny nx).a1 :=
          entropyFix_nonneg (abs_nonneg _)
        have ha3 : 0 ≤ (roeEig g p ⟨D, √(g * D) * nx, √(g * D) * ny⟩ ny nx).a3 :=
          entropyFix_nonneg (abs_nonneg _)
        rw [hm]
        have h1 := mul_nonpos_of_nonneg_of_nonpos ha1 hw1
        have h3 := mul_nonpos_of_nonneg_of_nonpos ha3 hw3
        linarith
      have hge : p.h * uperp p.u p.v ny nx ≤ (roeCombine (sideFlux g p ny nx)
          (sideFlux g ⟨D, √(g * D) * nx, √(g * D) * ny⟩ ny nx)
            (roeEig g p ⟨D, √(g * D) * nx, √(g * D) * ny⟩ ny nx) ny nx).m := by
        rcases le_total (√p.h) (√D) with h | h
        · exact le_of_eq (hsuper h).symm
        · exact hsub h
      refine ⟨le_trans hqn hge, hge, ?_⟩
      intro _ hfr
      apply hsuper
      -- from un² ≥ g h: √D³ √g = h un ≥ √g √h³
      by_contra hlt
      push Not at hlt
      have hun2 : √g * √p.h ≤ uperp p.u p.v ny nx := by
        refine le_of_sq_le_sq' ?_ hneg
        rw [mul_pow, sq, hgg, sq, hxx]
        exact hfr
      have h1 : √p.h * √p.h * (√g * √p.h) ≤ √g * (√D * √D * √D) := by
        rw [← hmul]
        exact mul_le_mul_of_nonneg_left hun2 (by positivity)
      have h2 : √D * √D * √D < √p.h * √p.h * √p.h := by
        have h3 : √D * √D ≤ √p.h * √p.h := mul_self_le_mul_self hy (le_of_lt hlt)
        have h4 : √D * √D * √D ≤ √p.h * √p.h * √D := mul_le_mul_of_nonneg_right h3 hy
        have h5 : √p.h * √p.h * √D < √p.h * √p.h * √p.h :=
          mul_lt_mul_of_pos_left hlt (by positivity)
        linarith
      have h3 := mul_lt_mul_of_pos_left h2 hgm
      linarith only [h1, h3]

example : ∃ F, usedFlux 9.806 1e-7 (boundaryStates 9.806 1e-7 0 .outflow ⟨2, 1, -1⟩ 0.8 0.6).1
    (boundaryStates 9.806 1e-7 0 .outflow ⟨2, 1, -1⟩ 0.8 0.6).2 0.8 0.6 = some F ∧ 0 ≤ F.m := by
  obtain ⟨F, h1, h2, -⟩ := C63_outflow (g := 9.806) (tinyH := 1e-7) (hAnuga := 0) ⟨2, 1, -1⟩
    (nx := 0.6) (ny := 0.8) (by norm_num) (by norm_num) (by norm_num) (by norm_num) _ rfl _ rfl
  exact ⟨F, h1, h2⟩

end RDy
