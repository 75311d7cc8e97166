import Verif.Model.Mms
import Verif.Props.Friction
import Verif.Props.Data
import Verif.Props.Config
import Verif.Props.TracerMax
import Mathlib.Analysis.Calculus.Deriv.Mul
import Mathlib.Analysis.Calculus.Deriv.Pow
import Mathlib.Analysis.SpecialFunctions.Trigonometric.Deriv
import Mathlib.Analysis.SpecialFunctions.ExpDeriv
import Mathlib.Analysis.SpecialFunctions.Sqrt

/-!
C91: the sources of manufactured solutions are the residual of the equations. C92: the study measures the error
of the discretisation.
-/

namespace RDy

open Finset Filter Topology

/-! ### C91: specification -/

/-- The expressions given for the derivatives are the derivatives of the expressions given for the solution. -/
structure MmsAgrees (F : MmsFields) (x y t : ℝ) : Prop where
  hx : HasDerivAt (fun s => F.h s y t) (F.dhdx x y t) x
  hy : HasDerivAt (fun s => F.h x s t) (F.dhdy x y t) y
  ht : HasDerivAt (fun s => F.h x y s) (F.dhdt x y t) t
  ux : HasDerivAt (fun s => F.u s y t) (F.dudx x y t) x
  uy : HasDerivAt (fun s => F.u x s t) (F.dudy x y t) y
  ut : HasDerivAt (fun s => F.u x y s) (F.dudt x y t) t
  vx : HasDerivAt (fun s => F.v s y t) (F.dvdx x y t) x
  vy : HasDerivAt (fun s => F.v x s t) (F.dvdy x y t) y
  vt : HasDerivAt (fun s => F.v x y s) (F.dvdt x y t) t
  zx : HasDerivAt (fun s => F.z s y) (F.dzdx x y) x
  zy : HasDerivAt (fun s => F.z x s) (F.dzdy x y) y

/-- The same for the concentration of class `i`. -/
structure MmsAgreesC (F : MmsFields) (i : ℕ) (x y t : ℝ) : Prop where
  cx : HasDerivAt (fun s => F.c i s y t) (F.dcdx i x y t) x
  cy : HasDerivAt (fun s => F.c i x s t) (F.dcdy i x y t) y
  ct : HasDerivAt (fun s => F.c i x y s) (F.dcdt i x y t) t

/-- the manufactured state at a point -/
def MmsFields.prim (F : MmsFields) (x y t : ℝ) : Prim := ⟨F.h x y t, F.u x y t, F.v x y t⟩

/-- the manufactured conserved variables at a point -/
def MmsFields.cons (F : MmsFields) (x y t : ℝ) : Cons :=
  ⟨F.h x y t, F.h x y t * F.u x y t, F.h x y t * F.v x y t⟩

/-- Divergence of the fluxes of the shallow-water equations (`physFlux`, of `C36_consistent`), component `k`. -/
noncomputable def fluxDiv (g : ℝ) (F : MmsFields) (k : Flux → ℝ) (x y t : ℝ) : ℝ :=
  deriv (fun s => k (physFlux g (F.prim s y t) 1 0)) x + deriv (fun s => k (physFlux g (F.prim x s t) 0 1)) y

/-! ### C91: theorems -/

theorem mms_discharge {h u v : ℝ} (hh : 0 < h) :
    √((h * u) ^ 2 + (h * v) ^ 2) = h * √(u * u + v * v) := by
  have e : (h * u) ^ 2 + (h * v) ^ 2 = h ^ 2 * (u * u + v * v) := by ring
  rw [e, Real.sqrt_mul (sq_nonneg h), Real.sqrt_sq hh.le]

theorem mms_manning {g n h u v a : ℝ} (hh : 0 < h) :
    manning g n h (h * a) √((h * u) ^ 2 + (h * v) ^ 2) =
      g * (n * n) * h ^ (-(1 : ℝ) / 3) * a * √(u * u + v * v) := by
  unfold manning
  rw [mms_discharge hh]
  have e : h ^ (7 / 3 : ℝ) = h * h * h ^ ((1 : ℝ) / 3) := by
    rw [show (7 / 3 : ℝ) = 1 + 1 + 1 / 3 by norm_num, Real.rpow_add hh, Real.rpow_add hh, Real.rpow_one]
  have e2 : h ^ (-(1 : ℝ) / 3) = 1 / h ^ ((1 : ℝ) / 3) := by
    rw [neg_div, Real.rpow_neg hh.le]
    exact (one_div _).symm
  have hp : 0 < h ^ ((1 : ℝ) / 3) := Real.rpow_pos_of_pos hh _
  rw [e, e2]
  field_simp

/-- C91. The sources are exactly what the manufactured solution leaves in the shallow-water equations with Manning
friction over the manufactured bed: at every point where the depth is positive and the given derivatives are those of
the given solution,
`∂t (h, hu, hv) + div F + (0, g h ∂x z, g h ∂y z) + (0, friction) = sources`. -/
theorem C91_flow {F : MmsFields} {x y t : ℝ} (hd : MmsAgrees F x y t) (hh : 0 < F.h x y t) :
    (mmsSource F x y t).m =
      deriv (fun s => (F.cons x y s).h) t + fluxDiv 9.806 F Flux.m x y t ∧
    (mmsSource F x y t).x =
      deriv (fun s => (F.cons x y s).hu) t + fluxDiv 9.806 F Flux.x x y t +
        9.806 * F.h x y t * deriv (fun s => F.z s y) x +
        manning 9.806 (F.n x y) (F.h x y t) (F.cons x y t).hu
          √((F.cons x y t).hu ^ 2 + (F.cons x y t).hv ^ 2) ∧
    (mmsSource F x y t).y =
      deriv (fun s => (F.cons x y s).hv) t + fluxDiv 9.806 F Flux.y x y t +
        9.806 * F.h x y t * deriv (fun s => F.z x s) y +
        manning 9.806 (F.n x y) (F.h x y t) (F.cons x y t).hv
          √((F.cons x y t).hu ^ 2 + (F.cons x y t).hv ^ 2) := by
  have h1 := hd.hx
  have h2 := hd.hy
  have h3 := hd.ht
  have u1 := hd.ux
  have u2 := hd.uy
  have u3 := hd.ut
  have v1 := hd.vx
  have v2 := hd.vy
  have v3 := hd.vt
  simp only [MmsFields.cons, mms_manning hh, fluxDiv, physFlux, MmsFields.prim, hd.zx.deriv, hd.zy.deriv, h3.deriv,
    (h3.fun_mul u3).deriv, (h3.fun_mul v3).deriv]
  have d1 : deriv (fun s => F.h s y t * (F.u s y t * 1 + F.v s y t * 0)) x =
      F.dhdx x y t * (F.u x y t * 1 + F.v x y t * 0) + F.h x y t * (F.dudx x y t * 1 + F.dvdx x y t * 0) :=
    (h1.fun_mul ((u1.mul_const 1).fun_add (v1.mul_const 0))).deriv
  have d2 : deriv (fun s => F.h x s t * (F.u x s t * 0 + F.v x s t * 1)) y =
      F.dhdy x y t * (F.u x y t * 0 + F.v x y t * 1) + F.h x y t * (F.dudy x y t * 0 + F.dvdy x y t * 1) :=
    (h2.fun_mul ((u2.mul_const 0).fun_add (v2.mul_const 1))).deriv
  have d3 : deriv (fun s => F.h s y t * (F.u s y t * 1 + F.v s y t * 0) * F.u s y t +
      9.806 * F.h s y t ^ 2 / 2 * 1) x =
      (F.dhdx x y t * (F.u x y t * 1 + F.v x y t * 0) + F.h x y t * (F.dudx x y t * 1 + F.dvdx x y t * 0)) *
        F.u x y t + F.h x y t * (F.u x y t * 1 + F.v x y t * 0) * F.dudx x y t +
      9.806 * (((2 : ℕ) : ℝ) * F.h x y t ^ (2 - 1) * F.dhdx x y t) / 2 * 1 :=
    (((h1.fun_mul ((u1.mul_const 1).fun_add (v1.mul_const 0))).fun_mul u1).fun_add
      ((((h1.fun_pow 2).const_mul 9.806).div_const 2).mul_const 1)).deriv
  have d4 : deriv (fun s => F.h x s t * (F.u x s t * 0 + F.v x s t * 1) * F.u x s t +
      9.806 * F.h x s t ^ 2 / 2 * 0) y =
      (F.dhdy x y t * (F.u x y t * 0 + F.v x y t * 1) + F.h x y t * (F.dudy x y t * 0 + F.dvdy x y t * 1)) *
        F.u x y t + F.h x y t * (F.u x y t * 0 + F.v x y t * 1) * F.dudy x y t +
      9.806 * (((2 : ℕ) : ℝ) * F.h x y t ^ (2 - 1) * F.dhdy x y t) / 2 * 0 :=
    (((h2.fun_mul ((u2.mul_const 0).fun_add (v2.mul_const 1))).fun_mul u2).fun_add
      ((((h2.fun_pow 2).const_mul 9.806).div_const 2).mul_const 0)).deriv
  have d5 : deriv (fun s => F.h s y t * (F.u s y t * 1 + F.v s y t * 0) * F.v s y t +
      9.806 * F.h s y t ^ 2 / 2 * 0) x =
      (F.dhdx x y t * (F.u x y t * 1 + F.v x y t * 0) + F.h x y t * (F.dudx x y t * 1 + F.dvdx x y t * 0)) *
        F.v x y t + F.h x y t * (F.u x y t * 1 + F.v x y t * 0) * F.dvdx x y t +
      9.806 * (((2 : ℕ) : ℝ) * F.h x y t ^ (2 - 1) * F.dhdx x y t) / 2 * 0 :=
    (((h1.fun_mul ((u1.mul_const 1).fun_add (v1.mul_const 0))).fun_mul v1).fun_add
      ((((h1.fun_pow 2).const_mul 9.806).div_const 2).mul_const 0)).deriv
  have d6 : deriv (fun s => F.h x s t * (F.u x s t * 0 + F.v x s t * 1) * F.v x s t +
      9.806 * F.h x s t ^ 2 / 2 * 1) y =
      (F.dhdy x y t * (F.u x y t * 0 + F.v x y t * 1) + F.h x y t * (F.dudy x y t * 0 + F.dvdy x y t * 1)) *
        F.v x y t + F.h x y t * (F.u x y t * 0 + F.v x y t * 1) * F.dvdy x y t +
      9.806 * (((2 : ℕ) : ℝ) * F.h x y t ^ (2 - 1) * F.dhdy x y t) / 2 * 1 :=
    (((h2.fun_mul ((u2.mul_const 0).fun_add (v2.mul_const 1))).fun_mul v2).fun_add
      ((((h2.fun_pow 2).const_mul 9.806).div_const 2).mul_const 1)).deriv
  rw [d1, d2, d3, d4, d5, d6]
  unfold mmsSource mmsCd mmsGravity
  refine ⟨by ring, by ring, by ring⟩

/-- C91 (sediment). The source of every sediment class is what its manufactured concentration leaves in the transport
equation with erosion and deposition. -/
theorem C91_sediment {F : MmsFields} {i : ℕ} {x y t : ℝ} (hd : MmsAgrees F x y t) (hc : MmsAgreesC F i x y t)
    (hh : 0 < F.h x y t) :
    mmsSediment F i x y t =
      deriv (fun s => F.h x y s * F.c i x y s) t +
      deriv (fun s => F.h s y t * F.u s y t * F.c i s y t) x +
      deriv (fun s => F.h x s t * F.v x s t * F.c i x s t) y -
      erosionDeposition 9.806 (F.n x y) (F.cons x y t) (F.h x y t * F.c i x y t) := by
  have e1 := (hd.ht.fun_mul hc.ct).deriv
  have e2 := ((hd.hx.fun_mul hd.ux).fun_mul hc.cx).deriv
  have e3 := ((hd.hy.fun_mul hd.vy).fun_mul hc.cy).deriv
  rw [e1, e2, e3]
  unfold mmsSediment mmsCd mmsGravity erosionDeposition
  simp only [MmsFields.cons, mul_div_cancel_left₀ _ hh.ne']
  ring

/-- C91 (friction). As the time step tends to zero, the friction terms of both methods tend to Manning's friction of
the current state. -/
theorem C91_friction {P : FlowParams} (m : FrictionMethod) {n : ℝ} {q : Cons} (Fx Fy bx bY : ℝ) (hg : 0 < P.g)
    (ht : 0 < P.tinyH) (hq : P.tinyH ≤ q.h) (hx : 0 < P.xqThreshold) :
    ∃ T : ℝ → ℝ × ℝ, (∀ᶠ dt in 𝓝[>] (0 : ℝ), friction P m dt n q Fx Fy bx bY = some (T dt)) ∧
      Tendsto T (𝓝[>] 0) (𝓝 (manning P.g n q.h q.hu √(q.hu ^ 2 + q.hv ^ 2),
        manning P.g n q.h q.hv √(q.hu ^ 2 + q.hv ^ 2))) := by
  have hh : 0 < q.h := lt_of_lt_of_le ht hq
  cases m with
  | semiImplicit =>
    set tb := P.g * (n * n) * q.h ^ (-(1 : ℝ) / 3) * √(q.hu / q.h * (q.hu / q.h) +
      q.hv / q.h * (q.hv / q.h)) / q.h with htb
    have hn : 0 ≤ n * n := mul_self_nonneg n
    have htb0 : 0 ≤ tb := by positivity
    have hm : ∀ a : ℝ, manning P.g n q.h a √(q.hu ^ 2 + q.hv ^ 2) = a * tb := by
      intro a
      have e := mms_manning (g := P.g) (n := n) (h := q.h) (u := q.hu / q.h) (v := q.hv / q.h) (a := a / q.h) hh
      rw [mul_div_cancel₀ _ hh.ne', mul_div_cancel₀ _ hh.ne', mul_div_cancel₀ _ hh.ne'] at e
      rw [e, htb]
      ring
    refine ⟨fun dt => ((q.hu + dt * Fx - dt * bx) * (tb / (1 + dt * tb)),
      (q.hv + dt * Fy - dt * bY) * (tb / (1 + dt * tb))), ?_, ?_⟩
    · filter_upwards [self_mem_nhdsWithin] with dt hdt
      have hdt0 : (0 : ℝ) < dt := hdt
      unfold friction frictionSemiImplicit
      dsimp only
      rw [if_pos hq, ← htb, if_neg]
      rintro (h | h)
      · exact hh.ne' h
      · have : 0 ≤ dt * tb := by positivity
        linarith only [h, this]
    · rw [hm, hm]
      have hcont : ContinuousAt (fun dt : ℝ => ((q.hu + dt * Fx - dt * bx) * (tb / (1 + dt * tb)),
          (q.hv + dt * Fy - dt * bY) * (tb / (1 + dt * tb)))) 0 := by
        have h1 : (1 : ℝ) + 0 * tb ≠ 0 := by norm_num
        fun_prop (disch := assumption)
      have := hcont.tendsto.mono_left (nhdsWithin_le_nhds (s := Set.Ioi 0))
      simpa using this
  | xq2018 =>
    have hcx : Tendsto (fun dt : ℝ => q.hu + (Fx - bx) * dt) (𝓝[>] 0) (𝓝 q.hu) := by
      have : ContinuousAt (fun dt : ℝ => q.hu + (Fx - bx) * dt) 0 := by fun_prop
      simpa using this.tendsto.mono_left (nhdsWithin_le_nhds (s := Set.Ioi 0))
    have hcy : Tendsto (fun dt : ℝ => q.hv + (Fy - bY) * dt) (𝓝[>] 0) (𝓝 q.hv) := by
      have : ContinuousAt (fun dt : ℝ => q.hv + (Fy - bY) * dt) 0 := by fun_prop
      simpa using this.tendsto.mono_left (nhdsWithin_le_nhds (s := Set.Ioi 0))
    have hroot : ∀ a b : ℝ → ℝ, ∀ a0 b0 : ℝ, Tendsto a (𝓝[>] 0) (𝓝 a0) → Tendsto b (𝓝[>] 0) (𝓝 b0) →
        Tendsto (fun dt => √(a dt * a dt + b dt * b dt)) (𝓝[>] 0) (𝓝 √(a0 * a0 + b0 * b0)) := by
      intro a b a0 b0 h1 h2
      exact ((Real.continuous_sqrt.tendsto _).comp ((h1.mul h1).add (h2.mul h2)))
    have hlam : Tendsto (fun dt : ℝ => dt * xqLambda P n q.h (q.hu + (Fx - bx) * dt) (q.hv + (Fy - bY) * dt))
        (𝓝[>] 0) (𝓝 0) := by
      have h0 : Tendsto (fun dt : ℝ => dt) (𝓝[>] 0) (𝓝 0) := tendsto_id.mono_left nhdsWithin_le_nhds
      have h1 : Tendsto (fun dt : ℝ => xqLambda P n q.h (q.hu + (Fx - bx) * dt) (q.hv + (Fy - bY) * dt)) (𝓝[>] 0)
          (𝓝 (xqLambda P n q.h q.hu q.hv)) := by
        unfold xqLambda
        exact (hroot _ _ _ _ (hcx.div_const q.h) (hcy.div_const q.h)).const_mul _
      simpa using h0.mul h1
    refine ⟨fun dt => (P.g * (n * n) * q.h ^ (-(7 : ℝ) / 3) * (q.hu + (Fx - bx) * dt) *
        √((q.hu + (Fx - bx) * dt) * (q.hu + (Fx - bx) * dt) + (q.hv + (Fy - bY) * dt) * (q.hv + (Fy - bY) * dt)),
      P.g * (n * n) * q.h ^ (-(7 : ℝ) / 3) * (q.hv + (Fy - bY) * dt) *
        √((q.hu + (Fx - bx) * dt) * (q.hu + (Fx - bx) * dt) + (q.hv + (Fy - bY) * dt) * (q.hv + (Fy - bY) * dt))),
      ?_, ?_⟩
    · filter_upwards [hlam.eventually (gt_mem_nhds hx)] with dt hdt
      unfold friction frictionXQ2018 xqDischarge
      dsimp only
      rw [if_pos hq, if_neg hh.ne', if_pos hdt]
      rfl
    · have e7 : q.h ^ (-(7 : ℝ) / 3) = 1 / q.h ^ (7 / 3 : ℝ) := by
        rw [neg_div, Real.rpow_neg hh.le]
        exact (one_div _).symm
      have hm : ∀ a : ℝ, manning P.g n q.h a √(q.hu ^ 2 + q.hv ^ 2) =
          P.g * (n * n) * q.h ^ (-(7 : ℝ) / 3) * a * √(q.hu * q.hu + q.hv * q.hv) := by
        intro a
        unfold manning
        rw [e7, pow_two, pow_two, pow_two]
        ring
      rw [hm, hm]
      exact ((hcx.const_mul _).mul (hroot _ _ _ _ hcx hcy)).prodMk_nhds
        ((hcy.const_mul _).mul (hroot _ _ _ _ hcx hcy))

/-- C91 (operator). If the flux divergence that the operator computes in a cell were the exact one, then for both
friction methods the right-hand side of the cell, with the manufactured sources, would tend to the time derivative of
the manufactured solution as the time step tends to zero: the sources cancel everything else. -/
theorem C91_operator {P : FlowParams} (m : FrictionMethod) {F : MmsFields} {x y t : ℝ} (hd : MmsAgrees F x y t)
    (hg : P.g = 9.806) (ht : 0 < P.tinyH) (hw : P.tinyH ≤ F.h x y t) (hx : 0 < P.xqThreshold) :
    ∃ T : ℝ → ℝ × ℝ,
      (∀ᶠ dt in 𝓝[>] (0 : ℝ), friction P m dt (F.n x y) (F.cons x y t) (-fluxDiv 9.806 F Flux.x x y t)
        (-fluxDiv 9.806 F Flux.y x y t) (bedTerm P true (F.dzdx x y) (F.dzdy x y) (F.h x y t)).1
        (bedTerm P true (F.dzdx x y) (F.dzdy x y) (F.h x y t)).2 = some (T dt)) ∧
      -fluxDiv 9.806 F Flux.m x y t + (mmsSource F x y t).m = deriv (fun s => (F.cons x y s).h) t ∧
      Tendsto (fun dt => -fluxDiv 9.806 F Flux.x x y t -
        (bedTerm P true (F.dzdx x y) (F.dzdy x y) (F.h x y t)).1 - (T dt).1 + (mmsSource F x y t).x) (𝓝[>] 0)
        (𝓝 (deriv (fun s => (F.cons x y s).hu) t)) ∧
      Tendsto (fun dt => -fluxDiv 9.806 F Flux.y x y t -
        (bedTerm P true (F.dzdx x y) (F.dzdy x y) (F.h x y t)).2 - (T dt).2 + (mmsSource F x y t).y) (𝓝[>] 0)
        (𝓝 (deriv (fun s => (F.cons x y s).hv) t)) := by
  have hh : 0 < F.h x y t := lt_of_lt_of_le ht hw
  obtain ⟨s1, s2, s3⟩ := C91_flow hd hh
  obtain ⟨T, hT1, hT2⟩ := C91_friction (P := P) m (n := F.n x y) (q := F.cons x y t)
    (-fluxDiv 9.806 F Flux.x x y t) (-fluxDiv 9.806 F Flux.y x y t)
    (bedTerm P true (F.dzdx x y) (F.dzdy x y) (F.h x y t)).1
    (bedTerm P true (F.dzdx x y) (F.dzdy x y) (F.h x y t)).2 (by rw [hg]; norm_num) ht hw hx
  refine ⟨T, hT1, by rw [s1]; ring, ?_, ?_⟩
  · have h1 := (continuous_fst.tendsto _).comp hT2
    have h2 := (h1.const_sub (-fluxDiv 9.806 F Flux.x x y t -
      (bedTerm P true (F.dzdx x y) (F.dzdy x y) (F.h x y t)).1)).add_const (mmsSource F x y t).x
    refine h2.congr' ?_ |>.trans ?_
    · exact Eventually.of_forall fun _ => rfl
    · rw [s2, hd.zx.deriv, hg]
      simp only [bedTerm, if_true, hg]
      apply le_of_eq
      congr 1
      change -_ - _ - manning 9.806 (F.n x y) (F.h x y t) _ _ + _ = _
      ring
  · have h1 := (continuous_snd.tendsto _).comp hT2
    have h2 := (h1.const_sub (-fluxDiv 9.806 F Flux.y x y t -
      (bedTerm P true (F.dzdx x y) (F.dzdy x y) (F.h x y t)).2)).add_const (mmsSource F x y t).y
    refine h2.congr' ?_ |>.trans ?_
    · exact Eventually.of_forall fun _ => rfl
    · rw [s3, hd.zy.deriv, hg]
      simp only [bedTerm, if_true, hg]
      apply le_of_eq
      congr 1
      change -_ - _ - manning 9.806 (F.n x y) (F.h x y t) _ _ + _ = _
      ring

/-! ### C91: the shipped studies -/

/-- The manufactured solution of the shipped convergence studies
(`/repo/driver/tests/swe_roe/mms_conv_study.yaml:13-47`,
`/repo/driver/tests/sediment/sediment_mms_conv_study.yaml:15-60`), with any constants. -/
noncomputable def shippedMms (H T U V N Z C K : ℝ) : MmsFields where
  h x y t := H * (1 + Real.sin (K * x) * Real.sin (K * y)) * Real.exp (t / T)
  dhdx x y t := H * K * Real.sin (K * y) * Real.cos (K * x) * Real.exp (t / T)
  dhdy x y t := H * K * Real.sin (K * x) * Real.cos (K * y) * Real.exp (t / T)
  dhdt x y t := H / T * (1 + Real.sin (K * x) * Real.sin (K * y)) * Real.exp (t / T)
  u x y t := U * Real.cos (K * x) * Real.sin (K * y) * Real.exp (t / T)
  dudx x y t := -U * K * Real.sin (K * x) * Real.sin (K * y) * Real.exp (t / T)
  dudy x y t := U * K * Real.cos (K * x) * Real.cos (K * y) * Real.exp (t / T)
  dudt x y t := U / T * Real.cos (K * x) * Real.sin (K * y) * Real.exp (t / T)
  v x y t := V * Real.sin (K * x) * Real.cos (K * y) * Real.exp (t / T)
  dvdx x y t := K * V * Real.cos (K * x) * Real.cos (K * y) * Real.exp (t / T)
  dvdy x y t := -K * V * Real.sin (K * x) * Real.sin (K * y) * Real.exp (t / T)
  dvdt x y t := V / T * Real.sin (K * x) * Real.cos (K * y) * Real.exp (t / T)
  z x y := Z * Real.sin (K * x) * Real.sin (K * y)
  dzdx x y := Z * K * Real.cos (K * x) * Real.sin (K * y)
  dzdy x y := Z * K * Real.sin (K * x) * Real.cos (K * y)
  n x y := N * (1 + Real.sin (K * x) * Real.sin (K * y))
  c i x y t := if i = 0 then C * (1 + Real.sin (K * x) * Real.sin (K * y)) * Real.exp (t / T)
    else C * (1 + Real.sin (K * x) * Real.sin (K * y)) * Real.exp (-t / T)
  dcdx i x y t := if i = 0 then C * K * Real.sin (K * y) * Real.cos (K * x) * Real.exp (t / T)
    else C * K * Real.sin (K * y) * Real.cos (K * x) * Real.exp (-t / T)
  dcdy i x y t := if i = 0 then C * K * Real.sin (K * x) * Real.cos (K * y) * Real.exp (t / T)
    else C * K * Real.sin (K * x) * Real.cos (K * y) * Real.exp (-t / T)
  dcdt i x y t := if i = 0 then C / T * (1 + Real.sin (K * x) * Real.sin (K * y)) * Real.exp (t / T)
    else -C / T * (1 + Real.sin (K * x) * Real.sin (K * y)) * Real.exp (-t / T)

theorem sinK (K a : ℝ) : HasDerivAt (fun s => Real.sin (K * s)) (Real.cos (K * a) * (K * 1)) a :=
  ((hasDerivAt_id a).const_mul K).sin

theorem cosK (K a : ℝ) : HasDerivAt (fun s => Real.cos (K * s)) (-Real.sin (K * a) * (K * 1)) a :=
  ((hasDerivAt_id a).const_mul K).cos

theorem expT (T a : ℝ) : HasDerivAt (fun s => Real.exp (s / T)) (Real.exp (a / T) * (1 / T)) a :=
  ((hasDerivAt_id a).div_const T).exp

theorem expNegT (T a : ℝ) : HasDerivAt (fun s => Real.exp (-s / T)) (Real.exp (-a / T) * (-1 / T)) a :=
  ((hasDerivAt_id a).fun_neg.div_const T).exp

/-- C91 (shipped studies). The derivatives written in the shipped configurations are those of the solutions written
there, at every point, at every time and for all constants; so the sources of these studies are the residual of the
equations wherever there is water. -/
theorem C91_shipped (H T U V N Z C K x y t : ℝ) :
    MmsAgrees (shippedMms H T U V N Z C K) x y t ∧ ∀ i < 2, MmsAgreesC (shippedMms H T U V N Z C K) i x y t := by
  have sx := sinK K x
  have sy := sinK K y
  have cx := cosK K x
  have cy := cosK K y
  have et := expT T t
  have nt := expNegT T t
  constructor
  · constructor
    · exact ((((sx.mul_const (Real.sin (K * y))).const_add 1).const_mul H).mul_const (Real.exp (t / T))).congr_deriv
        (by simp only [shippedMms]; ring)
    · exact ((((sy.const_mul (Real.sin (K * x))).const_add 1).const_mul H).mul_const (Real.exp (t / T))).congr_deriv
        (by simp only [shippedMms]; ring)
    · exact (et.const_mul (H * (1 + Real.sin (K * x) * Real.sin (K * y)))).congr_deriv
        (by simp only [shippedMms]; ring)
    · exact (((cx.const_mul U).mul_const (Real.sin (K * y))).mul_const (Real.exp (t / T))).congr_deriv
        (by simp only [shippedMms]; ring)
    · exact ((sy.const_mul (U * Real.cos (K * x))).mul_const (Real.exp (t / T))).congr_deriv
        (by simp only [shippedMms]; ring)
    · exact (et.const_mul (U * Real.cos (K * x) * Real.sin (K * y))).congr_deriv
        (by simp only [shippedMms]; ring)
    · exact (((sx.const_mul V).mul_const (Real.cos (K * y))).mul_const (Real.exp (t / T))).congr_deriv
        (by simp only [shippedMms]; ring)
    · exact ((cy.const_mul (V * Real.sin (K * x))).mul_const (Real.exp (t / T))).congr_deriv
        (by simp only [shippedMms]; ring)
    · exact (et.const_mul (V * Real.sin (K * x) * Real.cos (K * y))).congr_deriv
        (by simp only [shippedMms]; ring)
    · exact ((sx.const_mul Z).mul_const (Real.sin (K * y))).congr_deriv (by simp only [shippedMms]; ring)
    · exact (sy.const_mul (Z * Real.sin (K * x))).congr_deriv (by simp only [shippedMms]; ring)
  · intro i hi
    interval_cases i
    · constructor
      · exact ((((sx.mul_const (Real.sin (K * y))).const_add 1).const_mul C).mul_const
          (Real.exp (t / T))).congr_deriv (by simp only [shippedMms, if_true]; ring)
      · exact ((((sy.const_mul (Real.sin (K * x))).const_add 1).const_mul C).mul_const
          (Real.exp (t / T))).congr_deriv (by simp only [shippedMms, if_true]; ring)
      · exact (et.const_mul (C * (1 + Real.sin (K * x) * Real.sin (K * y)))).congr_deriv
          (by simp only [shippedMms, if_true]; ring)
    · constructor
      · exact ((((sx.mul_const (Real.sin (K * y))).const_add 1).const_mul C).mul_const
          (Real.exp (-t / T))).congr_deriv (by simp only [shippedMms, one_ne_zero, if_false]; ring)
      · exact ((((sy.const_mul (Real.sin (K * x))).const_add 1).const_mul C).mul_const
          (Real.exp (-t / T))).congr_deriv (by simp only [shippedMms, one_ne_zero, if_false]; ring)
      · exact (nt.const_mul (C * (1 + Real.sin (K * x) * Real.sin (K * y)))).congr_deriv
          (by simp only [shippedMms, one_ne_zero, if_false]; ring)

/-- the constants of the shipped studies -/
noncomputable def exMms : MmsFields := shippedMms 0.005 20 0.025 0.025 0.01 0.0025 0.5 0.6283185307179586

theorem exMms_wet (x t : ℝ) : 0 < exMms.h x 0 t := by
  simp only [exMms, shippedMms, mul_zero, Real.sin_zero, add_zero, mul_one]
  positivity

example (x t : ℝ) := C91_flow (C91_shipped 0.005 20 0.025 0.025 0.01 0.0025 0.5 0.6283185307179586 x 0 t).1
  (exMms_wet x t)

example (x t : ℝ) := C91_sediment (C91_shipped 0.005 20 0.025 0.025 0.01 0.0025 0.5 0.6283185307179586 x 0 t).1
  ((C91_shipped 0.005 20 0.025 0.025 0.01 0.0025 0.5 0.6283185307179586 x 0 t).2 1 (by norm_num)) (exMms_wet x t)

example (m : FrictionMethod) := C91_operator (P := ⟨9.806, 1e-7, 0, 1e-10⟩) m
  (C91_shipped 0.005 20 0.025 0.025 0.01 0.0025 0.5 0.6283185307179586 2 0 0).1 rfl (by norm_num)
  (by simp [shippedMms]; norm_num) (by norm_num)

example : ∃ T : ℝ → ℝ × ℝ, (∀ᶠ dt in 𝓝[>] (0 : ℝ),
      friction ⟨9.806, 1e-7, 0, 1e-10⟩ .xq2018 dt 0.03 ⟨1, 2, 0⟩ 1 2 3 4 = some (T dt)) ∧
    Tendsto T (𝓝[>] 0) (𝓝 (manning 9.806 0.03 1 2 √(2 ^ 2 + 0 ^ 2), manning 9.806 0.03 1 0 √(2 ^ 2 + 0 ^ 2))) :=
  C91_friction (P := ⟨9.806, 1e-7, 0, 1e-10⟩) .xq2018 (q := ⟨1, 2, 0⟩) 1 2 3 4 (by norm_num) (by norm_num)
    (by norm_num) (by norm_num)

/-! ### C92: sources and solution in the cells -/

theorem mmsSetComponents_spec (n : ℕ) (regions : List SrcRegion) (r : SrcRegion) (hr : r ∈ regions) (hid : r.id = 1)
    (huniq : ∀ s ∈ regions, s.id = 1 → s = r) (pm : PMesh) (hown : r.owned = (mmsOwned pm).map pm.l2o)
    (hnd : r.owned.Nodup) (cent : ℕ → ℝ × ℝ) (F : MmsFields) (t : ℝ) (ds : List ℕ) (hds : ∀ d ∈ ds, d < n)
    (data : ℕ → ℝ) :
    ∃ a, mmsSetComponents n regions pm cent F t ds data = .ok a ∧
      (∀ c < pm.numCells, pm.owned c = true → ∀ k < n, a (n * pm.l2o c + k) =
        if k ∈ ds then mmsComponent F t k (cent c) else data (n * pm.l2o c + k)) ∧
      ∀ o, o ∉ r.owned → ∀ k < n, a (n * o + k) = data (n * o + k) := by
  induction ds generalizing data with
  | nil => exact ⟨data, rfl, fun c _ _ k _ => by simp, fun _ _ _ _ => rfl⟩
  | cons d ds ih =>
    have hlen : ((mmsOwned pm).map fun c => mmsComponent F t d (cent c)).length = r.owned.length := by
      rw [hown, List.length_map, List.length_map]
    have h26 := C26_regional n regions r hr (fun s hs he => huniq s hs (he.trans hid)) hnd d
      (hds d List.mem_cons_self) ((mmsOwned pm).map fun c => mmsComponent F t d (cent c)) data
    rw [if_pos hlen, hid] at h26
    obtain ⟨b, hb, hb1, hb2⟩ := h26
    obtain ⟨a, ha, ha1, ha2⟩ := ih (fun d' hd' => hds d' (List.mem_cons_of_mem _ hd')) b
    refine ⟨a, ?_, ?_, ?_⟩
    · unfold mmsSetComponents
      rw [hb]
      exact ha
    · intro c hc ho k hk
      rw [ha1 c hc ho k hk]
      by_cases hkd : k ∈ ds
      · rw [if_pos hkd, if_pos (List.mem_cons_of_mem _ hkd)]
      · rw [if_neg hkd]
        by_cases hk' : k = d
        · subst hk'
          rw [if_pos List.mem_cons_self]
          have hm : c ∈ mmsOwned pm := by
            unfold mmsOwned
            rw [List.mem_filter]
            exact ⟨List.mem_range.mpr hc, ho⟩
          obtain ⟨i, hi, rfl⟩ := List.getElem_of_mem hm
          have := hb1 i (by rw [hown, List.length_map]; exact hi) (by rw [List.length_map]; exact hi)
          simp only [hown, List.getElem_map] at this
          exact this
        · rw [if_neg (fun h => by rcases List.mem_cons.mp h with h | h; exacts [hk' h, hkd h])]
          exact hb2 _ k hk (Or.inl hk')
    · intro o ho k hk
      rw [ha2 o ho k hk, hb2 o k hk (Or.inr ho)]

/-- C92 (sources). Before every step from `t` with step `dt`, if the region with ID 1 consists of all owned cells,
the sources of water, momentum and every sediment class of each owned cell become those of the manufactured solution
at the centroid of this cell in the middle of the step. Missing: salinity and temperature; other regions. -/
theorem C92_sources_partial (n nc : ℕ) (hn : 3 + nc ≤ n) (regions : List SrcRegion) (r : SrcRegion)
    (hr : r ∈ regions) (hid : r.id = 1) (huniq : ∀ s ∈ regions, s.id = 1 → s = r) (pm : PMesh)
    (hown : r.owned = (mmsOwned pm).map pm.l2o) (hnd : r.owned.Nodup) (cent : ℕ → ℝ × ℝ) (F : MmsFields)
    (t dt : ℝ) (data : ℕ → ℝ) :
    ∃ a, mmsPreStep n nc regions pm cent F t dt data = .ok a ∧
      ∀ c < pm.numCells, pm.owned c = true →
        a (n * pm.l2o c) = (mmsSource F (cent c).1 (cent c).2 (t + dt / 2)).m ∧
        a (n * pm.l2o c + 1) = (mmsSource F (cent c).1 (cent c).2 (t + dt / 2)).x ∧
        a (n * pm.l2o c + 2) = (mmsSource F (cent c).1 (cent c).2 (t + dt / 2)).y ∧
        (∀ i < nc, a (n * pm.l2o c + (3 + i)) = mmsSediment F i (cent c).1 (cent c).2 (t + dt / 2)) ∧
        ∀ k, 3 + nc ≤ k → k < n → a (n * pm.l2o c + k) = data (n * pm.l2o c + k) := by
  obtain ⟨a, ha, h1, -⟩ := mmsSetComponents_spec n regions r hr hid huniq pm hown hnd cent F (t + dt / 2)
    (List.range (3 + nc)) (fun d hd => lt_of_lt_of_le (List.mem_range.mp hd) hn) data
  refine ⟨a, ?_, fun c hc ho => ?_⟩
  · unfold mmsPreStep mmsSetSources
    rw [show t + 0.5 * dt = t + dt / 2 by ring]
    exact ha
  · have h := h1 c hc ho
    simp only [List.mem_range] at h
    refine ⟨?_, ?_, ?_, ?_, ?_⟩
    · have := h 0 (by omega)
      rw [if_pos (by omega)] at this
      simpa [mmsComponent] using this
    · have := h 1 (by omega)
      rw [if_pos (by omega)] at this
      simpa [mmsComponent] using this
    · have := h 2 (by omega)
      rw [if_pos (by omega)] at this
      simpa [mmsComponent] using this
    · intro i hi
      have := h (3 + i) (by omega)
      rw [if_pos (by omega)] at this
      unfold mmsComponent at this
      rw [if_neg (by omega), if_neg (by omega), if_neg (by omega), Nat.add_sub_cancel_left] at this
      exact this
    · intro k hk hkn
      have := h k hkn
      rw [if_neg (by omega)] at this
      exact this

/-- Two cells and a ghost; region 1 consists of the two cells. -/
def exPMmms : PMesh := ⟨3, fun _ => 1, fun c => decide (c < 2), id, [], [], fun _ => 0, fun _ => 0, fun _ => 0⟩

example (t dt : ℝ) := C92_sources_partial 5 2 (by norm_num) [⟨1, [0, 1]⟩] ⟨1, [0, 1]⟩ (by simp) rfl (by simp)
  exPMmms (by decide +kernel) (by decide +kernel) (fun c => (c, 0)) exMms t dt fun _ => 0

/-- C92 fails if no region has the ID 1 (IDs come from the mesh): nothing is set, and nobody is told. -/
theorem C92_region_violated (n nc : ℕ) (regions : List SrcRegion) (h : ∀ r ∈ regions, r.id ≠ 1) (pm : PMesh)
    (cent : ℕ → ℝ × ℝ) (F : MmsFields) (t dt : ℝ) (data : ℕ → ℝ) :
    mmsPreStep n nc regions pm cent F t dt data = .ok data := by
  unfold mmsPreStep mmsSetSources
  generalize List.range (3 + nc) = ds
  generalize t + 0.5 * dt = t'
  induction ds with
  | nil => rfl
  | cons d ds ih =>
    unfold mmsSetComponents
    rw [C26_unknown_id n regions 1 h]
    exact ih

example (t dt : ℝ) := C92_region_violated 3 0 [⟨2, [0, 1]⟩] (by simp) exPMmms (fun c => (c, 0)) exMms t dt fun _ => 0

/-- C92: with several regions, so that the one with ID 1 does not contain all owned cells, every step is an error. -/
theorem C92_several_regions (n nc : ℕ) (regions : List SrcRegion) (r : SrcRegion) (hr : r ∈ regions) (hid : r.id = 1)
    (huniq : ∀ s ∈ regions, s.id = 1 → s = r) (pm : PMesh) (hown : r.owned.length ≠ (mmsOwned pm).length)
    (hnd : r.owned.Nodup) (hn : 0 < n) (cent : ℕ → ℝ × ℝ) (F : MmsFields) (t dt : ℝ) (data : ℕ → ℝ) :
    mmsPreStep n nc regions pm cent F t dt data = .error := by
  unfold mmsPreStep mmsSetSources
  rw [show 3 + nc = (2 + nc) + 1 by omega, List.range_succ_eq_map]
  unfold mmsSetComponents
  have h26 := C26_regional n regions r hr (fun s hs he => huniq s hs (he.trans hid)) hnd 0 hn
    ((mmsOwned pm).map fun c => mmsComponent F (t + 0.5 * dt) 0 (cent c)) data
  rw [if_neg (by rw [List.length_map]; exact fun h => hown h.symm), hid] at h26
  rw [h26]

example (t dt : ℝ) := C92_several_regions 3 0 [⟨1, [0]⟩, ⟨2, [1]⟩] ⟨1, [0]⟩ (by simp) rfl (by simp) exPMmms
  (by decide +kernel) (by decide +kernel) (by norm_num) (fun c => (c, 0)) exMms t dt fun _ => 0

theorem filter_lt_sorted {cells : List ℕ} (hs : cells.Pairwise (· < ·)) {p q : ℕ → Bool}
    (hpq : ∀ c, p c = true → q c = true) (hp : ∀ c c', c < c' → p c' = true → p c = true) :
    cells.filter p <+: cells.filter q := by
  induction cells with
  | nil => simp
  | cons c cs ih =>
    rw [List.pairwise_cons] at hs
    by_cases h : p c = true
    · rw [List.filter_cons_of_pos h, List.filter_cons_of_pos (hpq c h)]
      exact (List.prefix_cons_inj c).mpr (ih hs.2)
    · have : (c :: cs).filter p = [] := by
        rw [List.filter_eq_nil_iff]
        intro a ha
        rcases List.mem_cons.mp ha with rfl | ha
        · exact h
        · exact fun h' => h (hp c a (hs.1 a ha) h')
      rw [this]
      exact List.nil_prefix

theorem mmsFill_spec {ndof numOwned : ℕ} (hn : 3 ≤ ndof) {cells : List ℕ} (hs : cells.Pairwise (· < ·)) {d : ℕ}
    (hd : d < ndof) (val : ℕ → ℝ) (x : ℕ → ℝ) (c k : ℕ) (hk : k < ndof) :
    mmsFill ndof (ndof * numOwned) cells d val x (ndof * c + k) =
      if k = d ∧ c ∈ cells ∧ c < numOwned then val c else x (ndof * c + k) := by
  have hdm : ∀ a b a' b' : ℕ, b < ndof → b' < ndof → ndof * a + b = ndof * a' + b' → a = a' ∧ b = b' := by
    intro a b a' b' hb hb' h
    have h1 := congrArg (· / ndof) h
    have h2 := congrArg (· % ndof) h
    have hpos : 0 < ndof := by omega
    simp only [Nat.mul_add_mod, Nat.mod_eq_of_lt hb, Nat.mod_eq_of_lt hb', Nat.mul_add_div hpos,
      Nat.div_eq_of_lt hb, Nat.div_eq_of_lt hb', Nat.add_zero] at h1 h2
    exact ⟨h1, h2⟩
  have hpre : (cells.filter fun c => decide (ndof * c < ndof * numOwned)) <+:
      (cells.filter fun c => decide (3 * c < ndof * numOwned)) := by
    refine filter_lt_sorted hs ?_ ?_
    · intro c h
      have h' : ndof * c < ndof * numOwned := by simpa using h
      have : 3 * c ≤ ndof * c := Nat.mul_le_mul_right c hn
      simpa using lt_of_le_of_lt this h'
    · intro c c' hc h
      have h' : ndof * c' < ndof * numOwned := by simpa using h
      have : ndof * c ≤ ndof * c' := Nat.mul_le_mul_left _ hc.le
      simpa using lt_of_le_of_lt this h'
  have hown : ∀ c, ndof * c < ndof * numOwned ↔ c < numOwned := by
    intro c
    exact Nat.mul_lt_mul_left (by omega)
  have hmem : ∀ c', c' ∈ (cells.filter fun c => decide (ndof * c < ndof * numOwned)) ↔ c' ∈ cells ∧ c' < numOwned := by
    intro c'
    rw [List.mem_filter, decide_eq_true_iff, hown]
  unfold mmsFill
  split
  · next h =>
    obtain ⟨rfl, hc, ho⟩ := h
    obtain ⟨i, hi, hci⟩ := List.getElem_of_mem ((hmem c).mpr ⟨hc, ho⟩)
    have hz : (c, i) ∈ (cells.filter fun c => decide (ndof * c < ndof * numOwned)).zipIdx := by
      rw [List.mem_zipIdx_iff_getElem?, List.getElem?_eq_getElem hi, hci]
    have hbulk : ∀ (j : ℕ) (hj : j < (cells.filter fun c => decide (ndof * c < ndof * numOwned)).length),
        mmsBulk (ndof * numOwned) cells val j =
          val ((cells.filter fun c => decide (ndof * c < ndof * numOwned))[j]) := by
      intro j hj
      have hj' : j < (cells.filter fun c => decide (3 * c < ndof * numOwned)).length :=
        lt_of_lt_of_le hj hpre.length_le
      unfold mmsBulk
      rw [List.getD_eq_getElem _ _ (by rw [List.length_map]; exact hj'), List.getElem_map, hpre.getElem hj]
    have hval : ∀ q ∈ (cells.filter fun c => decide (ndof * c < ndof * numOwned)).zipIdx,
        mmsBulk (ndof * numOwned) cells val q.2 = val q.1 := by
      rintro ⟨a, j⟩ hq
      rw [List.mem_zipIdx_iff_getElem?] at hq
      obtain ⟨hj, hja⟩ := List.getElem?_eq_some_iff.mp hq
      simp only
      rw [hbulk j hj, hja]
    have h := fill_mem x (cells.filter fun c => decide (ndof * c < ndof * numOwned)).zipIdx
      (fun p => ndof * p.1 + k) (fun p => mmsBulk (ndof * numOwned) cells val p.2) (c, i) hz (by
        intro q hq he
        have := (hdm _ _ _ _ hk hk he).1
        rw [hval q hq, hval _ hz, this])
    rw [hval _ hz] at h
    exact h
  · next h =>
    refine fill_other x _ _ _ _ ?_
    rintro ⟨a, j⟩ hq he
    rw [List.mem_zipIdx_iff_getElem?] at hq
    have ham := (hmem a).mp (List.mem_of_getElem? hq)
    obtain ⟨rfl, rfl⟩ := hdm _ _ _ _ hd hk he
    exact h ⟨rfl, ham⟩

theorem mmsFillRegion_spec {ndof numOwned nc : ℕ} (extra : List (ℝ → ℝ → ℝ → ℝ))
    (hn : 3 + nc + extra.length ≤ ndof) {cells : List ℕ}
    (hs : cells.Pairwise (· < ·)) (cent : ℕ → ℝ × ℝ) (F : MmsFields) (t : ℝ) (x : ℕ → ℝ) (c k : ℕ)
    (hk : k < ndof) :
    mmsFillRegion ndof (ndof * numOwned) nc extra cent F t x cells (ndof * c + k) =
      if k < 3 + nc + extra.length ∧ c ∈ cells ∧ c < numOwned then mmsValue F nc extra t k (cent c) else x (ndof * c + k) := by
  unfold mmsFillRegion
  have key : ∀ m, m ≤ 3 + nc + extra.length → (List.range m).foldl
      (fun x d => mmsFill ndof (ndof * numOwned) cells d (fun c => mmsValue F nc extra t d (cent c)) x) x (ndof * c + k) =
      if k < m ∧ c ∈ cells ∧ c < numOwned then mmsValue F nc extra t k (cent c) else x (ndof * c + k) := by
    intro m
    induction m with
    | zero => intro _; simp
    | succ m ih =>
      intro hm
      rw [List.range_succ, List.foldl_append, List.foldl_cons, List.foldl_nil,
        mmsFill_spec (by omega) hs (by omega) _ _ c k hk, ih (by omega)]
      by_cases hc : c ∈ cells ∧ c < numOwned
      · by_cases h1 : k = m
        · subst h1
          rw [if_pos ⟨rfl, hc⟩, if_pos ⟨by omega, hc⟩]
        · rw [if_neg (fun h => h1 h.1)]
          by_cases h2 : k < m
          · rw [if_pos ⟨h2, hc⟩, if_pos ⟨by omega, hc⟩]
          · rw [if_neg (fun h => h2 h.1), if_neg (fun h => h2 (by have := h.1; omega))]
      · rw [if_neg (fun h => hc h.2), if_neg (fun h => hc h.2), if_neg (fun h => hc h.2)]
  exact key _ le_rfl

/-- C92 (solution). The solution of a run with manufactured solutions starts with (and its error is measured against)
the manufactured solution at the centroid of each owned cell that belongs to a region: depth, discharges, and depth
times concentration for every sediment class, for salinity and for temperature (as far as they are on); everything
else is zero. Owned cells come first in the local numbering
(as in meshes distributed by PETSc), cells of regions in increasing order. -/
theorem C92_solution (ndof numOwned nc : ℕ) (extra : List (ℝ → ℝ → ℝ → ℝ))
    (hn : 3 + nc + extra.length ≤ ndof) (regions : List (List ℕ))
    (hs : ∀ cells ∈ regions, cells.Pairwise (· < ·)) (cent : ℕ → ℝ × ℝ) (F : MmsFields) (t : ℝ) (c : ℕ)
    (hc : c < numOwned) :
    if ∃ cells ∈ regions, c ∈ cells then
      mmsSolution ndof (ndof * numOwned) nc extra regions cent F t (ndof * c) = (F.cons (cent c).1 (cent c).2 t).h ∧
      mmsSolution ndof (ndof * numOwned) nc extra regions cent F t (ndof * c + 1) = (F.cons (cent c).1 (cent c).2 t).hu ∧
      mmsSolution ndof (ndof * numOwned) nc extra regions cent F t (ndof * c + 2) = (F.cons (cent c).1 (cent c).2 t).hv ∧
      (∀ i < nc, mmsSolution ndof (ndof * numOwned) nc extra regions cent F t (ndof * c + (3 + i)) =
        F.h (cent c).1 (cent c).2 t * F.c i (cent c).1 (cent c).2 t) ∧
      (∀ j (hj : j < extra.length),
        mmsSolution ndof (ndof * numOwned) nc extra regions cent F t (ndof * c + (3 + nc + j)) =
          F.h (cent c).1 (cent c).2 t * extra[j] (cent c).1 (cent c).2 t) ∧
      ∀ k, 3 + nc + extra.length ≤ k → k < ndof → mmsSolution ndof (ndof * numOwned) nc extra regions cent F t (ndof * c + k) = 0
    else ∀ k < ndof, mmsSolution ndof (ndof * numOwned) nc extra regions cent F t (ndof * c + k) = 0 := by
  have key : ∀ (rs : List (List ℕ)) (x : ℕ → ℝ), (∀ cells ∈ rs, cells.Pairwise (· < ·)) → ∀ k < ndof,
      rs.foldl (mmsFillRegion ndof (ndof * numOwned) nc extra cent F t) x (ndof * c + k) =
        if k < 3 + nc + extra.length ∧ ∃ cells ∈ rs, c ∈ cells then mmsValue F nc extra t k (cent c) else x (ndof * c + k) := by
    intro rs
    induction rs with
    | nil => intro x _ k _; simp
    | cons r rs ih =>
      intro x h k hk
      rw [List.foldl_cons, ih _ (fun r' hr' => h r' (List.mem_cons_of_mem _ hr')) k hk,
        mmsFillRegion_spec extra hn (h r List.mem_cons_self) cent F t x c k hk]
      simp only [List.exists_mem_cons_iff]
      by_cases h1 : k < 3 + nc + extra.length ∧ ∃ cells ∈ rs, c ∈ cells
      · rw [if_pos h1, if_pos ⟨h1.1, Or.inr h1.2⟩]
      · rw [if_neg h1]
        by_cases h2 : k < 3 + nc + extra.length ∧ c ∈ r
        · rw [if_pos ⟨h2.1, h2.2, hc⟩, if_pos ⟨h2.1, Or.inl h2.2⟩]
        · rw [if_neg (fun h => h2 ⟨h.1, h.2.1⟩), if_neg]
          rintro ⟨h3, h4 | h4⟩
          · exact h2 ⟨h3, h4⟩
          · exact h1 ⟨h3, h4⟩
  have hsol : ∀ k < ndof, mmsSolution ndof (ndof * numOwned) nc extra regions cent F t (ndof * c + k) =
      if k < 3 + nc + extra.length ∧ ∃ cells ∈ regions, c ∈ cells then mmsValue F nc extra t k (cent c) else 0 :=
    fun k hk => key regions _ hs k hk
  split
  · next h =>
    refine ⟨?_, ?_, ?_, ?_, ?_, ?_⟩
    · have := hsol 0 (by omega)
      rw [if_pos ⟨by omega, h⟩] at this
      simpa [mmsValue, MmsFields.cons] using this
    · have := hsol 1 (by omega)
      rw [if_pos ⟨by omega, h⟩] at this
      simpa [mmsValue, MmsFields.cons] using this
    · have := hsol 2 (by omega)
      rw [if_pos ⟨by omega, h⟩] at this
      simpa [mmsValue, MmsFields.cons] using this
    · intro i hi
      have := hsol (3 + i) (by omega)
      rw [if_pos ⟨by omega, h⟩] at this
      unfold mmsValue at this
      rw [if_neg (by omega), if_neg (by omega), if_neg (by omega), Nat.add_sub_cancel_left] at this
      unfold mmsConc at this
      rw [if_pos hi] at this
      exact this
    · intro j hj
      have := hsol (3 + nc + j) (by omega)
      rw [if_pos ⟨by omega, h⟩] at this
      unfold mmsValue at this
      rw [if_neg (by omega), if_neg (by omega), if_neg (by omega),
        show 3 + nc + j - 3 = nc + j by omega] at this
      unfold mmsConc at this
      rw [if_neg (by omega), Nat.add_sub_cancel_left, List.getD_eq_getElem _ _ hj] at this
      exact this
    · intro k hk hkn
      rw [hsol k hkn, if_neg (fun h => absurd h.1 (by omega))]
  · next h =>
    intro k hk
    rw [hsol k hk, if_neg (fun h' => h h'.2)]

example (t : ℝ) := C92_solution 6 3 2 [fun x _ _ => x] (by simp) [[0, 2, 3], [1, 4]] (by decide +kernel) (fun c => (c, 0)) exMms t
  1 (by norm_num)

/-! ### C92: norms -/

theorem mmsLocalNorms_eq (m : ErrMesh) (ndof d : ℕ) (e : ℕ → ℝ) :
    (mmsLocalNorms m ndof d e).1 = ∑ i ∈ range m.numOwned, |e (ndof * i + d)| * m.area (m.o2l i) ∧
    (mmsLocalNorms m ndof d e).2.1 = ∑ i ∈ range m.numOwned, e (ndof * i + d) ^ 2 * m.area (m.o2l i) ∧
    0 ≤ (mmsLocalNorms m ndof d e).2.2 ∧
    (∀ i < m.numOwned, |e (ndof * i + d)| ≤ (mmsLocalNorms m ndof d e).2.2) ∧
    ((mmsLocalNorms m ndof d e).2.2 = 0 ∨ ∃ i < m.numOwned, (mmsLocalNorms m ndof d e).2.2 = |e (ndof * i + d)|) := by
  unfold mmsLocalNorms
  generalize m.numOwned = N
  induction N with
  | zero => simp
  | succ N ih =>
    obtain ⟨h1, h2, h3, h4, h5⟩ := ih
    rw [List.range_succ, List.foldl_append, List.foldl_cons, List.foldl_nil]
    refine ⟨?_, ?_, ?_, ?_, ?_⟩
    · rw [sum_range_succ, ← h1]
    · rw [sum_range_succ, ← h2, pow_two]
    · exact le_trans h3 (le_max_right _ _)
    · intro i hi
      rcases Nat.lt_succ_iff_lt_or_eq.mp hi with hi | rfl
      · exact le_trans (h4 i hi) (le_max_right _ _)
      · exact le_max_left _ _
    · rcases max_choice |e (ndof * N + d)| (List.foldl (fun s i =>
          (s.1 + |e (ndof * i + d)| * m.area (m.o2l i),
           s.2.1 + e (ndof * i + d) * e (ndof * i + d) * m.area (m.o2l i),
           max |e (ndof * i + d)| s.2.2)) ((0 : ℝ), (0 : ℝ), (0 : ℝ)) (List.range N)).2.2 with h | h
      · exact Or.inr ⟨N, Nat.lt_succ_self N, h⟩
      · rcases h5 with h5 | ⟨i, hi, h5⟩
        · exact Or.inl (h.trans h5)
        · exact Or.inr ⟨i, Nat.lt_succ_of_lt hi, h.trans h5⟩

theorem foldl_max_spec (l : List ℝ) (a : ℝ) :
    a ≤ l.foldl max a ∧ (∀ x ∈ l, x ≤ l.foldl max a) ∧ (l.foldl max a = a ∨ l.foldl max a ∈ l) := by
  induction l generalizing a with
  | nil => simp
  | cons x l ih =>
    obtain ⟨h1, h2, h3⟩ := ih (max a x)
    rw [List.foldl_cons]
    refine ⟨le_trans (le_max_left _ _) h1, ?_, ?_⟩
    · intro y hy
      rcases List.mem_cons.mp hy with rfl | hy
      · exact le_trans (le_max_right _ _) h1
      · exact h2 y hy
    · rcases h3 with h3 | h3
      · rcases max_choice a x with h | h
        · exact Or.inl (h3.trans h)
        · exact Or.inr (by rw [h3, h]; exact List.mem_cons_self)
      · exact Or.inr (List.mem_cons_of_mem _ h3)

/-- C92 (norms). However the `N` cells of the mesh are divided among processes, the norms of a component are those
of the difference of computed and manufactured solution: the integral of its absolute value, the root of the integral
of its square, and its largest absolute value. -/
theorem C92_norms {n N : ℕ} (m : Fin n → ErrMesh) (ndof d : ℕ) (exact u : Fin n → ℕ → ℝ)
    (φ : (Σ p, Fin (m p).numOwned) ≃ Fin N) (U E A : Fin N → ℝ)
    (hU : ∀ p (i : Fin (m p).numOwned), u p (ndof * i + d) = U (φ ⟨p, i⟩))
    (hE : ∀ p (i : Fin (m p).numOwned), exact p (ndof * i + d) = E (φ ⟨p, i⟩))
    (hA : ∀ p (i : Fin (m p).numOwned), (m p).area ((m p).o2l i) = A (φ ⟨p, i⟩)) :
    (mmsNorms m ndof d fun p => mmsError (exact p) (u p)).1 = ∑ c, |U c - E c| * A c ∧
    (mmsNorms m ndof d fun p => mmsError (exact p) (u p)).2.1 = √(∑ c, (U c - E c) ^ 2 * A c) ∧
    (∀ c, |U c - E c| ≤ (mmsNorms m ndof d fun p => mmsError (exact p) (u p)).2.2) ∧
    (0 < N → ∃ c, (mmsNorms m ndof d fun p => mmsError (exact p) (u p)).2.2 = |U c - E c|) := by
  have herr : ∀ p (i : Fin (m p).numOwned), mmsError (exact p) (u p) (ndof * i + d) = U (φ ⟨p, i⟩) - E (φ ⟨p, i⟩) := by
    intro p i
    unfold mmsError
    rw [hU, hE]
    ring
  have hsum : ∀ f : ℝ → ℝ, (∑ p, ∑ i ∈ range (m p).numOwned, f (mmsError (exact p) (u p) (ndof * i + d)) *
      (m p).area ((m p).o2l i)) = ∑ c, f (U c - E c) * A c := by
    intro f
    rw [← Equiv.sum_comp φ, Fintype.sum_sigma]
    refine sum_congr rfl fun p _ => ?_
    rw [sum_range]
    exact sum_congr rfl fun i _ => by rw [herr, hA]
  have hle : ∀ c, |U c - E c| ≤ (mmsNorms m ndof d fun p => mmsError (exact p) (u p)).2.2 := by
    intro c
    obtain ⟨⟨p, i⟩, rfl⟩ := φ.surjective c
    rw [← herr]
    refine le_trans ((mmsLocalNorms_eq (m p) ndof d (mmsError (exact p) (u p))).2.2.2.1 i i.2) ?_
    unfold mmsNorms maxOver
    exact (foldl_max_spec _ _).2.1 _ (by rw [List.mem_ofFn]; exact ⟨p, rfl⟩)
  refine ⟨?_, ?_, hle, ?_⟩
  · unfold mmsNorms
    rw [← hsum fun x => |x|]
    dsimp only
    exact sum_congr rfl fun p _ => (mmsLocalNorms_eq _ _ _ _).1
  · unfold mmsNorms
    rw [← hsum fun x => x ^ 2]
    exact congrArg Real.sqrt (sum_congr rfl fun p _ => (mmsLocalNorms_eq _ _ _ _).2.1)
  · intro hN
    have hzero : ∀ c, |U c - E c| ≤ 0 → |U c - E c| = 0 := fun c h => le_antisymm h (abs_nonneg _)
    rcases (foldl_max_spec (List.ofFn fun p => (mmsLocalNorms (m p) ndof d (mmsError (exact p) (u p))).2.2) 0).2.2
      with h | h
    · refine ⟨⟨0, hN⟩, ?_⟩
      have h' : (mmsNorms m ndof d fun p => mmsError (exact p) (u p)).2.2 = 0 := h
      have := hle ⟨0, hN⟩
      rw [h'] at this
      rw [h', hzero _ this]
    · obtain ⟨p, hp⟩ := List.mem_ofFn.mp h
      have hp' : (mmsNorms m ndof d fun p => mmsError (exact p) (u p)).2.2 =
        (mmsLocalNorms (m p) ndof d (mmsError (exact p) (u p))).2.2 := hp.symm
      rcases (mmsLocalNorms_eq (m p) ndof d (mmsError (exact p) (u p))).2.2.2.2 with h0 | ⟨i, hi, h1⟩
      · refine ⟨⟨0, hN⟩, ?_⟩
        have := hle ⟨0, hN⟩
        rw [hp', h0] at this
        rw [hp', h0, hzero _ this]
      · refine ⟨φ ⟨p, ⟨i, hi⟩⟩, ?_⟩
        rw [hp', h1, ← herr]

/-- C92: each of the three norms is zero exactly if the computed solution is the manufactured one in every cell. -/
theorem C92_norms_zero {n N : ℕ} (m : Fin n → ErrMesh) (ndof d : ℕ) (exact u : Fin n → ℕ → ℝ)
    (φ : (Σ p, Fin (m p).numOwned) ≃ Fin N) (U E A : Fin N → ℝ) (hN : 0 < N) (hpos : ∀ c, 0 < A c)
    (hU : ∀ p (i : Fin (m p).numOwned), u p (ndof * i + d) = U (φ ⟨p, i⟩))
    (hE : ∀ p (i : Fin (m p).numOwned), exact p (ndof * i + d) = E (φ ⟨p, i⟩))
    (hA : ∀ p (i : Fin (m p).numOwned), (m p).area ((m p).o2l i) = A (φ ⟨p, i⟩)) :
    ((mmsNorms m ndof d fun p => mmsError (exact p) (u p)).1 = 0 ↔ U = E) ∧
    ((mmsNorms m ndof d fun p => mmsError (exact p) (u p)).2.1 = 0 ↔ U = E) ∧
    ((mmsNorms m ndof d fun p => mmsError (exact p) (u p)).2.2 = 0 ↔ U = E) := by
  obtain ⟨h1, h2, h3, h4⟩ := C92_norms m ndof d exact u φ U E A hU hE hA
  refine ⟨?_, ?_, ?_⟩
  · rw [h1, sum_eq_zero_iff_of_nonneg fun c _ => mul_nonneg (abs_nonneg _) (hpos c).le]
    constructor
    · intro h
      funext c
      have := (mul_eq_zero.mp (h c (mem_univ c))).resolve_right (hpos c).ne'
      exact sub_eq_zero.mp (abs_eq_zero.mp this)
    · rintro rfl c -
      simp
  · rw [h2, Real.sqrt_eq_zero (sum_nonneg fun c _ => mul_nonneg (sq_nonneg _) (hpos c).le),
      sum_eq_zero_iff_of_nonneg fun c _ => mul_nonneg (sq_nonneg _) (hpos c).le]
    constructor
    · intro h
      funext c
      have := (mul_eq_zero.mp (h c (mem_univ c))).resolve_right (hpos c).ne'
      exact sub_eq_zero.mp (pow_eq_zero_iff (two_ne_zero)|>.mp this)
    · rintro rfl c -
      simp
  · constructor
    · intro h
      funext c
      have := h3 c
      rw [h] at this
      exact sub_eq_zero.mp (abs_eq_zero.mp (le_antisymm this (abs_nonneg _)))
    · rintro rfl
      obtain ⟨c, hc⟩ := h4 hN
      rw [hc, sub_self, abs_zero]

/-- Three cells on two processes: the first owns two cells (local cells 0 and 2), the second one. -/
def exErrMesh : Fin 2 → ErrMesh := ![⟨2, fun i => 2 * i, fun _ => 1⟩, ⟨1, id, fun _ => 2⟩]

/-- the global numbers of the cells -/
def exErrEquiv : (Σ p, Fin (exErrMesh p).numOwned) ≃ Fin 3 where
  toFun
    | ⟨0, i⟩ => if i.1 = 0 then 0 else 2
    | ⟨1, _⟩ => 1
  invFun
    | 0 => ⟨0, ⟨0, by decide⟩⟩
    | 1 => ⟨1, ⟨0, by decide⟩⟩
    | 2 => ⟨0, ⟨1, by decide⟩⟩
  left_inv := by decide +kernel
  right_inv := by decide +kernel

example := C92_norms exErrMesh 4 1 (fun _ _ => 1) (fun _ _ => 3) exErrEquiv (fun _ => 3) (fun _ => 1) ![1, 2, 1]
  (fun _ _ => rfl) (fun _ _ => rfl) (by
    intro p i
    fin_cases p
    · have hi : i.1 < 2 := i.2
      rcases i with ⟨i, _⟩
      have : i = 0 ∨ i = 1 := by simp only at hi; omega
      rcases this with rfl | rfl <;> rfl
    · rfl)

example := C92_norms_zero exErrMesh 4 1 (fun _ _ => 1) (fun _ _ => 3) exErrEquiv (fun _ => 3) (fun _ => 1) ![1, 2, 1]
  (by norm_num) (by intro c; fin_cases c <;> norm_num) (fun _ _ => rfl) (fun _ _ => rfl) (by
    intro p i
    fin_cases p
    · have hi : i.1 < 2 := i.2
      rcases i with ⟨i, _⟩
      have : i = 0 ∨ i = 1 := by simp only at hi; omega
      rcases this with rfl | rfl <;> rfl
    · rfl)

/-! ### C92: rates and verdict -/

theorem list_var_zero (xs : List ℝ) (h : xs.length * (xs.map fun x => x * x).sum - xs.sum * xs.sum = 0) :
    ∀ x ∈ xs, ∀ y ∈ xs, x = y := by
  have key : ∀ (l : List ℝ) (a : ℝ), (l.map fun x => (x - a) * (x - a)).sum =
      (l.map fun x => x * x).sum - 2 * a * l.sum + l.length * (a * a) := by
    intro l a
    induction l with
    | nil => simp
    | cons x l ih =>
      simp only [List.map_cons, List.sum_cons, List.length_cons, ih]
      push_cast
      ring
  have hz : ∀ (l : List ℝ) (a : ℝ), (l.map fun x => (x - a) * (x - a)).sum = 0 → ∀ x ∈ l, x = a := by
    intro l a
    induction l with
    | nil => simp
    | cons x l ih =>
      intro h0 y hy
      simp only [List.map_cons, List.sum_cons] at h0
      have h1 : 0 ≤ (l.map fun x => (x - a) * (x - a)).sum := by
        refine List.sum_nonneg ?_
        intro z hz
        obtain ⟨w, -, rfl⟩ := List.mem_map.mp hz
        exact mul_self_nonneg _
      have h2 := mul_self_nonneg (x - a)
      rcases List.mem_cons.mp hy with rfl | hy
      · have : (y - a) * (y - a) = 0 := by linarith only [h0, h1, h2]
        exact sub_eq_zero.mp (mul_self_eq_zero.mp this)
      · exact ih (by linarith only [h0, h1, h2]) y hy
  intro x hx y hy
  have hlen : (0 : ℝ) < xs.length := by
    exact_mod_cast List.length_pos_of_mem hx
  have hm := key xs (xs.sum / xs.length)
  have : (xs.map fun x => (x - xs.sum / xs.length) * (x - xs.sum / xs.length)).sum = 0 := by
    rw [hm]
    simp only [← pow_two] at h
    field_simp
    linarith only [h]
  rw [hz xs _ this x hx, hz xs _ this y hy]

/-- The regression finds the slope of data on a line, for every number of points that are not all above each other. -/
theorem regression_line (xs : List ℝ) (a b : ℝ) (hne : ∃ x ∈ xs, ∃ y ∈ xs, x ≠ y) :
    regressionSlope xs (xs.map fun x => a * x + b) = some a := by
  have hd : xs.length * (xs.map fun x => x * x).sum - xs.sum * xs.sum ≠ 0 := by
    intro h
    obtain ⟨x, hx, y, hy, hxy⟩ := hne
    exact hxy (list_var_zero xs h x hx y hy)
  have h1 : ∀ l : List ℝ, (l.map fun x => a * x + b).sum = a * l.sum + b * l.length := by
    intro l
    induction l with
    | nil => simp
    | cons x l ih =>
      simp only [List.map_cons, List.sum_cons, List.length_cons, ih]
      push_cast
      ring
  have h2 : ∀ l : List ℝ, (List.zipWith (· * ·) l (l.map fun x => a * x + b)).sum =
      a * (l.map fun x => x * x).sum + b * l.sum := by
    intro l
    induction l with
    | nil => simp
    | cons x l ih =>
      simp only [List.map_cons, List.zipWith_cons_cons, List.sum_cons, ih]
      ring
  unfold regressionSlope
  rw [if_neg hd, h1, h2]
  congr 1
  rw [div_eq_iff hd]
  ring

/-- C92 (rates). If the error is proportional to a power `p` of the cell size, that is to the power `-p / dim` of
the number of cells, the reported rate is `p`, for every number of levels whose numbers of cells are not all equal. -/
theorem C92_rate (dim : ℕ) (hdim : 0 < dim) (cells : List ℕ) (hpos : ∀ N ∈ cells, 0 < N)
    (hne : ∃ N ∈ cells, ∃ M ∈ cells, N ≠ M) (K p : ℝ) (hK : 0 < K) :
    mmsRate dim cells (cells.map fun N : ℕ => K * (N : ℝ) ^ (-p / dim)) = some p := by
  have hlog : ∀ l : List ℕ, (∀ N ∈ l, 0 < N) → (l.map fun N : ℕ => K * (N : ℝ) ^ (-p / dim)).mapM log10? =
      some ((l.map fun N : ℕ => Real.logb 10 N).map fun x => (-p / dim) * x + Real.logb 10 K) := by
    intro l
    induction l with
    | nil => intro _; rfl
    | cons N l ih =>
      intro h
      have hN : (0 : ℝ) < N := by exact_mod_cast h N List.mem_cons_self
      have hval : 0 < K * (N : ℝ) ^ (-p / dim) := mul_pos hK (Real.rpow_pos_of_pos hN _)
      rw [List.map_cons, List.mapM_cons, ih fun M hM => h M (List.mem_cons_of_mem _ hM)]
      unfold log10?
      rw [if_neg (not_le.mpr hval)]
      rw [Real.logb_mul hK.ne' (Real.rpow_pos_of_pos hN _).ne', Real.logb_rpow_eq_mul_logb_of_pos hN]
      simp [add_comm]
  unfold mmsRate
  rw [hlog cells hpos]
  simp only
  rw [regression_line]
  · simp only [Option.map_some]
    have : (dim : ℝ) ≠ 0 := by exact_mod_cast hdim.ne'
    congr 1
    field_simp
  · obtain ⟨N, hN, M, hM, hNM⟩ := hne
    refine ⟨Real.logb 10 N, List.mem_map.mpr ⟨N, hN, rfl⟩, Real.logb 10 M, List.mem_map.mpr ⟨M, hM, rfl⟩, ?_⟩
    intro h
    have h1 : (0 : ℝ) < N := by exact_mod_cast hpos N hN
    have h2 : (0 : ℝ) < M := by exact_mod_cast hpos M hM
    have hinj := Real.logb_injOn_pos (by norm_num : (1 : ℝ) < 10) (Set.mem_Ioi.mpr h1) (Set.mem_Ioi.mpr h2) h
    exact hNM (by exact_mod_cast hinj)

example : mmsRate 2 [100, 400, 1600] ([100, 400, 1600].map fun N : ℕ => 3 * (N : ℝ) ^ (-(1 : ℝ) / (2 : ℕ))) = some 1 :=
  C92_rate 2 (by norm_num) [100, 400, 1600] (by decide +kernel) ⟨100, by simp, 400, by simp, by norm_num⟩ 3 1
    (by norm_num)

/-- C92 (verdict). With water and `nc` sediment classes as the only components, and errors that are proportional to
powers of the cell size, the study passes exactly if every power exceeds the expected rate of its component in its
norm. -/
theorem C92_verdict (dim : ℕ) (hdim : 0 < dim) (cells : List ℕ) (hpos : ∀ N ∈ cells, 0 < N)
    (hne : ∃ N ∈ cells, ∃ M ∈ cells, N ≠ M) (nc : ℕ) (K p : ℕ → Fin 3 → ℝ) (hK : ∀ k j, 0 < K k j)
    (e : ExpectedRates) :
    mmsPass nc (fun k => ⟨mmsRate dim cells (cells.map fun N : ℕ => K k 0 * (N : ℝ) ^ (-(p k 0) / dim)),
        mmsRate dim cells (cells.map fun N : ℕ => K k 1 * (N : ℝ) ^ (-(p k 1) / dim)),
        mmsRate dim cells (cells.map fun N : ℕ => K k 2 * (N : ℝ) ^ (-(p k 2) / dim))⟩) e ↔
      (e.h.1 < p 0 0 ∧ e.h.2.1 < p 0 1 ∧ e.h.2.2 < p 0 2) ∧
      (e.hu.1 < p 1 0 ∧ e.hu.2.1 < p 1 1 ∧ e.hu.2.2 < p 1 2) ∧
      (e.hv.1 < p 2 0 ∧ e.hv.2.1 < p 2 1 ∧ e.hv.2.2 < p 2 2) ∧
      ∀ i < nc, (e.c i).1 < p (3 + i) 0 ∧ (e.c i).2.1 < p (3 + i) 1 ∧ (e.c i).2.2 < p (3 + i) 2 := by
  have hc : ∀ (k : ℕ) (x : ℝ × ℝ × ℝ), checkRates
      ⟨mmsRate dim cells (cells.map fun N : ℕ => K k 0 * (N : ℝ) ^ (-(p k 0) / dim)),
        mmsRate dim cells (cells.map fun N : ℕ => K k 1 * (N : ℝ) ^ (-(p k 1) / dim)),
        mmsRate dim cells (cells.map fun N : ℕ => K k 2 * (N : ℝ) ^ (-(p k 2) / dim))⟩ x ↔
      x.1 < p k 0 ∧ x.2.1 < p k 1 ∧ x.2.2 < p k 2 := by
    intro k x
    unfold checkRates checkRate
    simp only [C92_rate dim hdim cells hpos hne _ _ (hK k _), Option.some.injEq, not_le, exists_eq_left']
  unfold mmsPass
  simp only [hc]

example (e : ExpectedRates) := C92_verdict 2 (by norm_num) [100, 400, 1600] (by decide +kernel)
  ⟨100, by simp, 400, by simp, by norm_num⟩ 2 (fun _ _ => 3) (fun _ _ => 1) (fun _ _ => by norm_num) e

/-- C92 fails for a computation without error: if the error of a component in some norm is zero at some level, the
rate is not a number and the study does not pass, whatever is expected. -/
theorem C92_exact_violated (dim : ℕ) (cells : List ℕ) (norms : List ℝ) (h0 : (0 : ℝ) ∈ norms) :
    mmsRate dim cells norms = none ∧
    ∀ numTracers rates e, (rates 0).l1 = mmsRate dim cells norms → ¬ mmsPass numTracers rates e := by
  have hnone : norms.mapM log10? = none := by
    induction norms with
    | nil => simp at h0
    | cons x l ih =>
      rw [List.mapM_cons]
      rcases List.mem_cons.mp h0 with rfl | h
      · simp [log10?]
      · rw [ih h]
        cases log10? x <;> rfl
  have hr : mmsRate dim cells norms = none := by
    unfold mmsRate
    rw [hnone]
  refine ⟨hr, ?_⟩
  rintro numTracers rates e he ⟨⟨⟨x, hx, -⟩, -⟩, -⟩
  rw [he, hr] at hx
  exact absurd hx (by simp)

example : mmsRate 2 [100, 400] [0.1, 0] = none := (C92_exact_violated 2 [100, 400] [0.1, 0] (by simp)).1

/-- C92 fails for salinity: its rates are compared with the expected rates of a sediment class that is not there
(class `nc` of `nc`; zero if not given), not with those given for salinity. So a study in which salinity converges
more slowly than required passes. -/
theorem C92_salinity_violated (nc : ℕ) : ∃ (rates : ℕ → Rates) (e : ExpectedRates),
    (∀ i, nc ≤ i → e.c i = (0, 0, 0)) ∧ e.S = (1, 1, 1) ∧ rates (3 + nc) = ⟨some 0.1, some 0.1, some 0.1⟩ ∧
    mmsPass (nc + 1) rates e := by
  refine ⟨fun _ => ⟨some 0.1, some 0.1, some 0.1⟩, ⟨(0, 0, 0), (0, 0, 0), (0, 0, 0), fun _ => (0, 0, 0), (1, 1, 1),
    (0, 0, 0)⟩, fun _ _ => rfl, rfl, rfl, ?_⟩
  have : checkRates ⟨some 0.1, some 0.1, some 0.1⟩ (0, 0, 0) :=
    ⟨⟨_, rfl, by norm_num⟩, ⟨_, rfl, by norm_num⟩, ⟨_, rfl, by norm_num⟩⟩
  exact ⟨this, this, this, fun _ _ => this⟩

/-! ### C92: times -/

/-- C92 (times). If times are in seconds, the option `-dt` is not given, and the steps make up the final time
(always so if the number of steps is given), every level ends at the time whose manufactured solution it is compared
with. Missing: other units, the option, steps that do not divide the final time. -/
theorem C92_times_partial (base : Cfg) (hb : base.unit = .seconds) (g : TimeGiven) (hpos : g.Positive)
    (hcount : g.count = 2) (had : g.adaptive = none) (hN : ∀ n ∈ g.stopN, n ≤ 2 ^ 31 - 1)
    (hfit : ∀ s ∈ g.stop, ∀ d ∈ g.timeStep, s / d < 2 ^ 31 ∧ ∃ k : ℕ, s = k * d) :
    ∃ c, validateTime (setMissing (g.parse base)) = .ok c ∧ ∀ r, mmsEnd c none r = some (mmsEvalTime c) := by
  obtain ⟨c, h, h1, h2, h3, h4, h5, h6, h7, h8⟩ := C10_two_given_partial base g hpos hcount had hN
    (fun s hs d hd => (hfit s hs d hd).1)
  refine ⟨c, h, ?_⟩
  have hu : c.unit = .seconds := by
    rw [validateTime_unit _ _ h]
    simp [setMissing, TimeGiven.parse, hb]
  have hsd : c.stop = c.stopN * c.timeStep := by
    rcases hgn : g.stopN with _ | n
    · rcases hgs : g.stop with _ | s
      · exfalso
        simp [TimeGiven.count, hgn, hgs] at hcount
        cases hgd : g.timeStep <;> rw [hgd] at hcount <;> simp at hcount
      · rcases hgd : g.timeStep with _ | d
        · exfalso
          simp [TimeGiven.count, hgn, hgs, hgd] at hcount
        · obtain ⟨-, k, hk⟩ := hfit s hgs d hgd
          have e1 := h1 s hgs
          have e3 := h3 d hgd
          rw [e1, e3, hk] at h7 h8
          rw [e3] at h4
          have a1 : (c.stopN : ℝ) ≤ k := le_of_mul_le_mul_right h7 h4
          have a2 : (k : ℝ) < c.stopN + 1 := lt_of_mul_lt_mul_right h8 h4.le
          have b1 : c.stopN ≤ (k : ℤ) := by exact_mod_cast a1
          have b2 : (k : ℤ) < c.stopN + 1 := by exact_mod_cast a2
          have : c.stopN = (k : ℤ) := by omega
          rw [e1, e3, hk, this]
          push_cast
          rfl
    · exact h6 (by rw [hgn]; rfl)
  have hn0 : c.stopN ≠ 0 := by
    intro h0
    rw [h0] at hsd
    simp only [Int.cast_zero, zero_mul] at hsd
    exact h5.ne' hsd
  intro r
  unfold mmsEnd mmsEvalTime
  by_cases hr : r = 0
  · rw [if_pos hr]
    have := initialDt_eq c 1 (by rw [hu]; rfl) hn0
    unfold initialDt at this
    rw [this]
    have hn0' : (c.stopN : ℝ) ≠ 0 := by exact_mod_cast hn0
    simp only [Option.map_some, Nat.cast_one, mul_one]
    congr 1
    field_simp
  · rw [if_neg hr, hsd]

example : ∃ base : Cfg, base.unit = .seconds ∧
    ∃ c, validateTime (setMissing (TimeGiven.parse ⟨some 5, none, some 0.01, none, none⟩ base)) = .ok c ∧
      ∀ r, mmsEnd c none r = some (mmsEvalTime c) :=
  ⟨⟨0, 0, .semiImplicit, .euler, 0, 0, 0, 0, 0, 0, .seconds, none, [], []⟩, rfl,
    C92_times_partial _ rfl ⟨some 5, none, some 0.01, none, none⟩ (by simp [TimeGiven.Positive]; norm_num)
      (by simp [TimeGiven.count]) rfl (by simp) (by
        simp only [Option.mem_def, Option.some.injEq, forall_eq']
        exact ⟨by norm_num, 500, by norm_num⟩)⟩

/-- C92 fails for times in hours: the coarsest level runs for 36000 s, the refined levels for 10 s, and all are
compared with the solution at 10. -/
theorem C92_times_unit_violated (base : Cfg) (hb : base.unit = .hours) :
    ∃ c, validateTime (setMissing (TimeGiven.parse ⟨some 10, some 5, none, none, none⟩ base)) = .ok c ∧
      mmsEnd c none 0 = some 36000 ∧ mmsEnd c none 1 = some 10 ∧ mmsEvalTime c = 10 := by
  obtain ⟨c, h, h1, h2, -, -, -, h6, -⟩ := C10_two_given_partial base ⟨some 10, some 5, none, none, none⟩
    (by simp [TimeGiven.Positive]) (by simp [TimeGiven.count]) rfl (by simp) (by simp)
  have hu : c.unit = .hours := by
    rw [validateTime_unit _ _ h]
    simp [setMissing, TimeGiven.parse, hb]
  have e1 := h1 10 rfl
  have e2 := h2 5 rfl
  have e3 := h6 rfl
  refine ⟨c, h, ?_, ?_, e1⟩
  · unfold mmsEnd
    rw [if_pos (show (0 : ℕ) = 0 from rfl)]
    have := initialDt_eq c 3600 (by rw [hu]; rfl) (by rw [e2]; norm_num)
    unfold initialDt at this
    rw [this, e1, e2]
    norm_num
  · unfold mmsEnd
    rw [if_neg one_ne_zero, ← e3, e1]

example : ∃ base : Cfg, base.unit = .hours :=
  ⟨⟨0, 0, .semiImplicit, .euler, 0, 0, 0, 0, 0, 0, .hours, none, [], []⟩, rfl⟩

/-- C92 fails for steps that do not divide the final time, in seconds too: with final time 10 and step 3 the coarsest
level ends at 10 and the refined ones at 9, and all are compared with the solution at 10. -/
theorem C92_times_steps_violated (base : Cfg) (hb : base.unit = .seconds) :
    ∃ c, validateTime (setMissing (TimeGiven.parse ⟨some 10, none, some 3, none, none⟩ base)) = .ok c ∧
      mmsEnd c none 0 = some 10 ∧ mmsEnd c none 1 = some 9 ∧ mmsEvalTime c = 10 := by
  obtain ⟨c, h, h1, -, h3, -, -, -, h7, h8⟩ := C10_two_given_partial base ⟨some 10, none, some 3, none, none⟩
    (by simp [TimeGiven.Positive]) (by simp [TimeGiven.count]) rfl (by simp) (by simp; norm_num)
  have hu : c.unit = .seconds := by
    rw [validateTime_unit _ _ h]
    simp [setMissing, TimeGiven.parse, hb]
  have e1 := h1 10 rfl
  have e3 := h3 3 rfl
  rw [e1, e3] at h7 h8
  have hn : c.stopN = 3 := by
    have a1 : (c.stopN : ℝ) < 4 := by linarith only [h7]
    have a2 : (2 : ℝ) < c.stopN := by linarith only [h8]
    have b1 : c.stopN < 4 := by exact_mod_cast a1
    have b2 : 2 < c.stopN := by exact_mod_cast a2
    omega
  refine ⟨c, h, ?_, ?_, e1⟩
  · unfold mmsEnd
    rw [if_pos (show (0 : ℕ) = 0 from rfl)]
    have := initialDt_eq c 1 (by rw [hu]; rfl) (by rw [hn]; norm_num)
    unfold initialDt at this
    rw [this, e1, hn]
    norm_num
  · unfold mmsEnd
    rw [if_neg one_ne_zero, e3, hn]
    norm_num

/-- C92 fails with the option `-dt`: it is used at the coarsest level only. -/
theorem C92_times_option_violated (c : Cfg) (dt : ℝ) (hn : c.stopN ≠ 0) (hdt : dt ≠ c.timeStep) :
    mmsEnd c (some dt) 0 ≠ mmsEnd c (some dt) 1 := by
  unfold mmsEnd overrideDt
  rw [if_pos (show (0 : ℕ) = 0 from rfl), if_neg one_ne_zero]
  have hn' : (c.stopN : ℝ) ≠ 0 := by exact_mod_cast hn
  simp only [Option.map_some, ne_eq, Option.some.injEq, mul_eq_mul_left_iff, hn', or_false]
  exact hdt

example : mmsEnd ⟨0, 0, .semiImplicit, .euler, 0, 0, 10, 5, 2, 0, .seconds, none, [], []⟩ (some 1) 0 ≠
    mmsEnd ⟨0, 0, .semiImplicit, .euler, 0, 0, 10, 5, 2, 0, .seconds, none, [], []⟩ (some 1) 1 :=
  C92_times_option_violated _ 1 (by norm_num) (by norm_num)

end RDy
