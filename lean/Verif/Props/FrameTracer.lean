import Verif.Props.Frame
import Verif.Props.Tracer
import Verif.Model.CeedTracer
import Verif.Props.FrameMesh
import Verif.Props.TracerHR

/-!
C124: with tracers, too, the results do not depend on the coordinate axes. Depths and tracers of every cell stay, momenta turn with the axes. The changes of axes are those of C76 (`Ortho`).
-/

namespace RDy

open Finset

/-! ### Specification: states and results in other axes -/

namespace Ortho

/-- the same state with tracers, in other axes -/
def tprim (O : Ortho) (s : TPrim) : TPrim := ⟨O.prim s.p, s.c⟩
@[inherit_doc tprim] def tcons (O : Ortho) (s : TCons) : TCons := ⟨O.cons s.q, s.hc⟩

/-- the components of a cell or flux in other axes: 0 depth, 1 and 2 momentum, then the tracers -/
def comps (O : Ortho) (F : ℕ → ℝ) (d : ℕ) : ℝ := if d = 1 then O.x (F 1) (F 2) else if d = 2 then O.y (F 1) (F 2) else F d

/-- all cells -/
def tvec (O : Ortho) (f : ℕ → ℕ → ℝ) : ℕ → ℕ → ℝ := fun i => O.comps (f i)

/-- a boundary edge with its condition -/
def tbc (O : Ortho) : TBCond → TBCond
  | .dirichlet s => .dirichlet (O.tcons s)
  | .reflecting => .reflecting
@[inherit_doc tbc] def tbedge (O : Ortho) (e : TBEdge) : TBEdge := ⟨e.cell, e.len, O.y e.cn e.sn, O.x e.cn e.sn, O.tbc e.bc⟩

theorem comps_one (O : Ortho) (F : ℕ → ℝ) : O.comps F 1 = O.x (F 1) (F 2) := if_pos rfl
theorem comps_two (O : Ortho) (F : ℕ → ℝ) : O.comps F 2 = O.y (F 1) (F 2) := by unfold comps; rw [if_neg (by norm_num), if_pos rfl]
theorem comps_else (O : Ortho) (F : ℕ → ℝ) (d : ℕ) (h1 : d ≠ 1) (h2 : d ≠ 2) : O.comps F d = F d := by
  unfold comps; rw [if_neg h1, if_neg h2]

/-- a vector of components is the image of another if it is so for the three parts -/
theorem comps_ext (O : Ortho) (F G : ℕ → ℝ) (h1 : G 1 = O.x (F 1) (F 2)) (h2 : G 2 = O.y (F 1) (F 2)) (h : ∀ d, d ≠ 1 → d ≠ 2 → G d = F d) :
    G = O.comps F := by
  funext d
  by_cases d1 : d = 1
  · subst d1; rw [O.comps_one]; exact h1
  · by_cases d2 : d = 2
    · subst d2; rw [O.comps_two]; exact h2
    · rw [O.comps_else F d d1 d2]; exact h d d1 d2

theorem comps_zero (O : Ortho) : (fun _ => 0 : ℕ → ℝ) = O.comps fun _ => 0 :=
  O.comps_ext _ _ O.x_zero.symm O.y_zero.symm fun _ _ _ => rfl

end Ortho

/-! ### Fluxes -/

theorem tracerVelocities_frame (O : Ortho) (tinyH : ℝ) (s : TCons) : tracerVelocities tinyH (O.tcons s) = O.tprim (tracerVelocities tinyH s) := by
  unfold tracerVelocities
  by_cases h : s.q.h < tinyH
  · rw [if_pos h, if_pos (show (O.tcons s).q.h < tinyH from h)]
    simp [Ortho.tprim, Ortho.tcons, Ortho.prim, Ortho.cons, O.x_zero, O.y_zero]
  · rw [if_neg h, if_neg (show ¬ (O.tcons s).q.h < tinyH from h)]
    simp only [Ortho.tprim, Ortho.tcons, Ortho.prim, Ortho.cons, O.x_div, O.y_div]

theorem tracerRight_frame (O : Ortho) (tinyH : ℝ) (bc : TBCond) (L : TPrim) (sn cn : ℝ) :
    tracerRight tinyH (O.tbc bc) (O.tprim L) (O.y cn sn) (O.x cn sn) = O.tprim (tracerRight tinyH bc L sn cn) := by
  cases bc with
  | dirichlet s => exact tracerVelocities_frame O tinyH s
  | reflecting =>
    show TPrim.mk (reflectRight (O.prim L.p) (O.y cn sn) (O.x cn sn)) L.c = _
    rw [reflectRight_frame]; rfl

theorem tracerCombine_frame (O : Ortho) (g : ℝ) (n : ℕ) (L R : TPrim) (e : RoeEig) (sn cn : ℝ) :
    tracerCombine g n (O.tprim L) (O.tprim R) (O.eig e) (O.y cn sn) (O.x cn sn) = O.comps (tracerCombine g n L R e sn cn) := by
  obtain ⟨a0, a1, a2⟩ := tracerCombine_flow g n L R e sn cn
  obtain ⟨b0, b1, b2⟩ := tracerCombine_flow g n (O.tprim L) (O.tprim R) (O.eig e) (O.y cn sn) (O.x cn sn)
  have hc : roeCombine (sideFlux g (O.tprim L).p (O.y cn sn) (O.x cn sn)) (sideFlux g (O.tprim R).p (O.y cn sn) (O.x cn sn)) (O.eig e) (O.y cn sn) (O.x cn sn) =
      O.flux (roeCombine (sideFlux g L.p sn cn) (sideFlux g R.p sn cn) e sn cn) := by
    rw [← roeCombine_frame, ← sideFlux_frame, ← sideFlux_frame]; rfl
  rw [hc] at b0 b1 b2
  refine O.comps_ext _ _ ?_ ?_ fun d h1 h2 => ?_
  · rw [b1, a1, a2]; rfl
  · rw [b2, a1, a2]; rfl
  · by_cases h0 : d = 0
    · subst h0; rw [b0, a0]; rfl
    · have h3 : ¬ d < 3 := by omega
      have hs : ∀ s : TPrim, tracerSide g (O.tprim s) (O.y cn sn) (O.x cn sn) d = tracerSide g s sn cn d := by
        intro s
        unfold tracerSide
        rw [if_neg h0, if_neg h1, if_neg h2, if_neg h0, if_neg h1, if_neg h2]
        show s.p.h * uperp (O.x s.p.u s.p.v) (O.y s.p.u s.p.v) (O.y cn sn) (O.x cn sn) * s.c (d - 3) = _
        rw [uperp_frame]
      unfold tracerCombine
      rw [hs L, hs R]
      congr 1
      refine sum_congr rfl fun k _ => ?_
      have hch : tracerChat (O.tprim L) (O.tprim R) = tracerChat L R := rfl
      rw [hch]
      by_cases hk : k = 1
      · have z : ∀ (e' : RoeEig) (a b : ℝ), tracerR e' a b (tracerChat L R) d k = 0 := by
          intro e' a b
          unfold tracerR
          rw [if_neg h3, if_neg (by omega), if_neg (by omega)]
        rw [z, z]; ring
      · have hR : tracerR (O.eig e) (O.y cn sn) (O.x cn sn) (tracerChat L R) d k = tracerR e sn cn (tracerChat L R) d k := by
          unfold tracerR
          rw [if_neg h3, if_neg h3]
        have hA : tracerA (O.eig e) k = tracerA e k := by
          unfold tracerA
          rcases k with _ | _ | _ | k <;> rfl
        have hW : tracerW (O.eig e) (O.tprim L) (O.tprim R) k = tracerW e L R k := by
          unfold tracerW
          by_cases hk3 : k < 3
          · rw [if_pos hk3, if_pos hk3]
            rcases k with _ | _ | _ | k
            · rfl
            · exact absurd rfl hk
            · rfl
            · omega
          · rw [if_neg hk3, if_neg hk3]; rfl
        rw [hR, hA, hW]

theorem upwindCombine_frame (O : Ortho) (g : ℝ) (L R : TPrim) (e : RoeEig) (sn cn : ℝ) :
    upwindCombine g (O.tprim L) (O.tprim R) (O.eig e) (O.y cn sn) (O.x cn sn) = O.comps (upwindCombine g L R e sn cn) := by
  have hc : roeCombine (sideFlux g (O.tprim L).p (O.y cn sn) (O.x cn sn)) (sideFlux g (O.tprim R).p (O.y cn sn) (O.x cn sn)) (O.eig e) (O.y cn sn) (O.x cn sn) =
      O.flux (roeCombine (sideFlux g L.p sn cn) (sideFlux g R.p sn cn) e sn cn) := by
    rw [← roeCombine_frame, ← sideFlux_frame, ← sideFlux_frame]; rfl
  refine O.comps_ext _ _ ?_ ?_ fun d h1 h2 => ?_
  · unfold upwindCombine; rw [hc]; simp [Ortho.flux]
  · unfold upwindCombine; rw [hc]; simp [Ortho.flux]
  · unfold upwindCombine
    rw [hc]
    by_cases h0 : d = 0
    · simp [h0, Ortho.flux]
    · simp only [if_neg h0, if_neg h1, if_neg h2]; rfl

/-- C124 (edge). The fluxes of water, momentum and tracers between two states in other axes are the fluxes, in the other axes, with both Riemann solvers: those of water and tracers are the
same. -/
theorem C124_flux (O : Ortho) (sv : TSolver) (g : ℝ) (n : ℕ) (L R : TPrim) (sn cn : ℝ) :
    tracerFlux sv g n (O.tprim L) (O.tprim R) (O.y cn sn) (O.x cn sn) = (tracerFlux sv g n L R sn cn).map O.comps := by
  unfold tracerFlux
  have he : roeEig g (O.tprim L).p (O.tprim R).p (O.y cn sn) (O.x cn sn) = O.eig (roeEig g L.p R.p sn cn) := roeEig_frame O g L.p R.p sn cn
  by_cases h : RoeDefined L.p.h R.p.h
  · rw [if_pos h, if_pos (show RoeDefined (O.tprim L).p.h (O.tprim R).p.h from h), he]
    cases sv with
    | roe => exact congrArg some (tracerCombine_frame O g n L R _ sn cn)
    | upwind => exact congrArg some (upwindCombine_frame O g L R _ sn cn)
  · rw [if_neg h, if_neg (show ¬ RoeDefined (O.tprim L).p.h (O.tprim R).p.h from h)]; rfl

/-- The axes exchanged: the flux of the tracer through an edge between two wet states is the same number, that of `x`-momentum the one of `y`-momentum. -/
example : ∃ F F', tracerFlux .roe 9.806 1 ⟨⟨2, 1, -1⟩, fun _ => 3⟩ ⟨⟨1, 0, 2⟩, fun _ => 7⟩ 0.8 0.6 = some F ∧
    tracerFlux .roe 9.806 1 ⟨⟨2, -1, 1⟩, fun _ => 3⟩ ⟨⟨1, 2, 0⟩, fun _ => 7⟩ 0.6 0.8 = some F' ∧ F' 3 = F 3 ∧ F' 0 = F 0 ∧ F' 1 = F 2 ∧ F' 2 = F 1 := by
  have hd : RoeDefined (2 : ℝ) 1 := ⟨by norm_num, by norm_num, by norm_num⟩
  have h := C124_flux swapAxes .roe 9.806 1 ⟨⟨2, 1, -1⟩, fun _ => 3⟩ ⟨⟨1, 0, 2⟩, fun _ => 7⟩ 0.8 0.6
  obtain ⟨F, e⟩ : ∃ F, tracerFlux .roe 9.806 1 ⟨⟨2, 1, -1⟩, fun _ => 3⟩ ⟨⟨1, 0, 2⟩, fun _ => 7⟩ 0.8 0.6 = some F := ⟨_, if_pos hd⟩
  rw [e] at h
  refine ⟨F, swapAxes.comps F, e, ?_, rfl, rfl, ?_, ?_⟩
  · rw [← Option.map_some, ← h]
    simp [Ortho.tprim, Ortho.prim, Ortho.x, Ortho.y, swapAxes]
  · rw [Ortho.comps_one]; simp [Ortho.x, swapAxes]
  · rw [Ortho.comps_two]; simp [Ortho.y, swapAxes]

theorem usedTracerFlux_frame (O : Ortho) (sv : TSolver) (g tinyH : ℝ) (n : ℕ) (L R : TPrim) (sn cn : ℝ) :
    usedTracerFlux sv g tinyH n (O.tprim L) (O.tprim R) (O.y cn sn) (O.x cn sn) = (usedTracerFlux sv g tinyH n L R sn cn).map O.comps := by
  unfold usedTracerFlux
  by_cases h : ¬ (R.p.h < tinyH ∧ L.p.h < tinyH)
  · rw [if_pos h, if_pos (show ¬ ((O.tprim R).p.h < tinyH ∧ (O.tprim L).p.h < tinyH) from h), C124_flux]
  · rw [if_neg h, if_neg (show ¬¬ ((O.tprim R).p.h < tinyH ∧ (O.tprim L).p.h < tinyH) from h)]
    exact congrArg some O.comps_zero

theorem hrTState_frame (O : Ortho) (P : FlowParams) (z zmax : ℝ) (s : TCons) : hrTState P z zmax (O.tcons s) = O.tprim (hrTState P z zmax s) := by
  unfold hrTState
  show TPrim.mk (hrState P z zmax (O.cons s.q)) _ = _
  rw [hrState_frame]; rfl

theorem hrTFlux_frame (O : Ortho) (sv : TSolver) (P : FlowParams) (n : ℕ) (L R : TPrim) (sn cn : ℝ) :
    hrTFlux sv P n (O.tprim L) (O.tprim R) (O.y cn sn) (O.x cn sn) = (hrTFlux sv P n L R sn cn).map O.comps := by
  unfold hrTFlux
  by_cases h : L.p.h > P.tinyH ∨ R.p.h > P.tinyH
  · rw [if_pos h, if_pos (show (O.tprim L).p.h > P.tinyH ∨ (O.tprim R).p.h > P.tinyH from h), C124_flux]
  · rw [if_neg h, if_neg (show ¬ ((O.tprim L).p.h > P.tinyH ∨ (O.tprim R).p.h > P.tinyH) from h)]
    exact congrArg some O.comps_zero

theorem hrTCorrection_frame (O : Ortho) (P : FlowParams) (h hrec sn cn : ℝ) :
    hrTCorrection P h hrec (O.y cn sn) (O.x cn sn) = O.comps (hrTCorrection P h hrec sn cn) := by
  refine O.comps_ext _ _ ?_ ?_ fun d h1 h2 => ?_
  · simp only [hrTCorrection, if_true, if_neg (show ¬ (2 : ℕ) = 1 by norm_num), Ortho.x]; ring
  · simp only [hrTCorrection, if_true, if_neg (show ¬ (2 : ℕ) = 1 by norm_num), Ortho.y]; ring
  · simp only [hrTCorrection, if_neg h1, if_neg h2]

/-! ### Loops -/

theorem addOwnedT_frame (O : Ortho) (pm : PMesh) (f : ℕ → ℕ → ℝ) (c : ℕ) (F : ℕ → ℝ) (s : ℝ) :
    addOwnedT (O.mesh pm) (O.tvec f) c (O.comps F) s = O.tvec (addOwnedT pm f c F s) := by
  unfold addOwnedT
  by_cases h : pm.owned c = true
  · rw [if_pos h, if_pos (show (O.mesh pm).owned c = true from h)]
    funext i
    show (if i = pm.l2o c then fun d => O.tvec f i d + O.comps F d * s else O.tvec f i) = O.comps (if i = pm.l2o c then fun d => f i d + F d * s else f i)
    by_cases hi : i = pm.l2o c
    · rw [if_pos hi, if_pos hi]
      refine O.comps_ext _ _ ?_ ?_ fun d h1 h2 => ?_
      · show O.comps (f i) 1 + O.comps F 1 * s = _
        rw [O.comps_one, O.comps_one]; unfold Ortho.x; ring
      · show O.comps (f i) 2 + O.comps F 2 * s = _
        rw [O.comps_two, O.comps_two]; unfold Ortho.y; ring
      · show O.comps (f i) d + O.comps F d * s = _
        rw [O.comps_else _ _ h1 h2, O.comps_else _ _ h1 h2]
    · rw [if_neg hi, if_neg hi]; rfl
  · rw [if_neg h, if_neg (show ¬ (O.mesh pm).owned c = true from h)]

/-- loops commute with a change of axes if their bodies do -/
theorem foldlM_tframe {α β : Type} (O : Ortho) (t : α → β) (F : (ℕ → ℕ → ℝ) → α → Option (ℕ → ℕ → ℝ)) (G : (ℕ → ℕ → ℝ) → β → Option (ℕ → ℕ → ℝ))
    (h : ∀ f a, G (O.tvec f) (t a) = (F f a).map O.tvec) (l : List α) (f : ℕ → ℕ → ℝ) :
    (l.map t).foldlM G (O.tvec f) = (l.foldlM F f).map O.tvec := by
  induction l generalizing f with
  | nil => rfl
  | cons a l ih =>
    rw [List.map_cons, List.foldlM_cons, List.foldlM_cons, h]
    cases hF : F f a with
    | none => rfl
    | some f' => exact ih f'

theorem tracerEdge_frame (O : Ortho) (sv : TSolver) (P : FlowParams) (n : ℕ) (pm : PMesh) (u : ℕ → TCons) (f : ℕ → ℕ → ℝ) (e : IEdge) :
    tracerEdge sv P n (O.mesh pm) (fun c => O.tcons (u c)) (O.tvec f) (O.iedge e) = (tracerEdge sv P n pm u f e).map O.tvec := by
  unfold tracerEdge Ortho.iedge
  cases hr : e.right with
  | none => rfl
  | some r =>
    simp only [tracerVelocities_frame, usedTracerFlux_frame, Option.map_map]
    congr 1
    funext F
    simp only [Function.comp]
    rw [← addOwnedT_frame, ← addOwnedT_frame]
    rfl

theorem tracerBEdge_frame (O : Ortho) (sv : TSolver) (P : FlowParams) (n : ℕ) (pm : PMesh) (u : ℕ → TCons) (f : ℕ → ℕ → ℝ) (e : TBEdge) :
    tracerBEdge sv P n (O.mesh pm) (fun c => O.tcons (u c)) (O.tvec f) (O.tbedge e) = (tracerBEdge sv P n pm u f e).map O.tvec := by
  unfold tracerBEdge Ortho.tbedge
  by_cases h : pm.owned e.cell = true
  · rw [if_pos h, if_pos (show (O.mesh pm).owned e.cell = true from h)]
    simp only [tracerVelocities_frame, tracerRight_frame, usedTracerFlux_frame, Option.map_map]
    congr 1
    funext F
    simp only [Function.comp]
    rw [← addOwnedT_frame]
    rfl
  · rw [if_neg h, if_neg (show ¬ (O.mesh pm).owned e.cell = true from h)]
    rfl

theorem hrTEdge_frame (O : Ortho) (sv : TSolver) (P : FlowParams) (n : ℕ) (pm : PMesh) (u : ℕ → TCons) (f : ℕ → ℕ → ℝ) (e : IEdge) :
    hrTEdge sv P n (O.mesh pm) (fun c => O.tcons (u c)) (O.tvec f) (O.iedge e) = (hrTEdge sv P n pm u f e).map O.tvec := by
  unfold hrTEdge Ortho.iedge
  cases hr : e.right with
  | none => rfl
  | some r =>
    have hz : (O.mesh pm).zc = pm.zc := rfl
    have ha : (O.mesh pm).area = pm.area := rfl
    have hh : ∀ c, (O.tcons (u c)).q.h = (u c).q.h := fun _ => rfl
    have hp : ∀ w : TPrim, (O.tprim w).p.h = w.p.h := fun _ => rfl
    simp only [hz, ha, hh, hrTState_frame, hrTFlux_frame]
    by_cases hd : (u r).q.h < P.tinyH ∧ (u e.left).q.h < P.tinyH
    · rw [if_pos hd, if_pos hd]; rfl
    · rw [if_neg hd, if_neg hd, Option.map_map, Option.map_map]
      congr 1
      funext F
      simp only [Function.comp, hp, hrTCorrection_frame, addOwnedT_frame]

theorem tracerSourceCell_frame (O : Ortho) (P : FlowParams) (inc : Bool) (n : ℕ) (pm : PMesh) (dt : ℝ) (src : ℕ → ℕ → ℝ) (mann : ℕ → ℝ) (fd : ℕ → ℕ → ℝ)
    (u : ℕ → TCons) (f : ℕ → ℕ → ℝ) (c : ℕ) :
    tracerSourceCell P inc n (O.mesh pm) dt (O.tvec src) mann (O.tvec fd) (fun c => O.tcons (u c)) (O.tvec f) c =
      (tracerSourceCell P inc n pm dt src mann fd u f c).map O.tvec := by
  unfold tracerSourceCell
  by_cases h : pm.owned c = true
  · rw [if_pos h, if_pos (show (O.mesh pm).owned c = true from h)]
    have e1 : (O.mesh pm).dzdx c = O.x (pm.dzdx c) (pm.dzdy c) := rfl
    have e2 : (O.mesh pm).dzdy c = O.y (pm.dzdx c) (pm.dzdy c) := rfl
    have e3 : (O.mesh pm).l2o c = pm.l2o c := rfl
    have e4 : (O.tcons (u c)).q.h = (u c).q.h := rfl
    have e5 : ∀ (v : ℕ → ℕ → ℝ) i, O.tvec v i 1 = O.x (v i 1) (v i 2) := fun v i => O.comps_one (v i)
    have e6 : ∀ (v : ℕ → ℕ → ℝ) i, O.tvec v i 2 = O.y (v i 1) (v i 2) := fun v i => O.comps_two (v i)
    have e7 : tracerManningIndex (O.mesh pm) c = tracerManningIndex pm c := rfl
    have e8 : (O.tcons (u c)).q = O.cons (u c).q := rfl
    have hf := friction_frame O P .semiImplicit dt (mann (tracerManningIndex pm c)) (u c).q (fd (pm.l2o c) 1) (fd (pm.l2o c) 2)
      (bedTerm P inc (pm.dzdx c) (pm.dzdy c) (u c).q.h).1 (bedTerm P inc (pm.dzdx c) (pm.dzdy c) (u c).q.h).2
    have hf' : frictionSemiImplicit P dt (mann (tracerManningIndex pm c)) (O.cons (u c).q) (O.x (fd (pm.l2o c) 1) (fd (pm.l2o c) 2)) (O.y (fd (pm.l2o c) 1) (fd (pm.l2o c) 2))
        (O.x (bedTerm P inc (pm.dzdx c) (pm.dzdy c) (u c).q.h).1 (bedTerm P inc (pm.dzdx c) (pm.dzdy c) (u c).q.h).2)
        (O.y (bedTerm P inc (pm.dzdx c) (pm.dzdy c) (u c).q.h).1 (bedTerm P inc (pm.dzdx c) (pm.dzdy c) (u c).q.h).2) =
        (frictionSemiImplicit P dt (mann (tracerManningIndex pm c)) (u c).q (fd (pm.l2o c) 1) (fd (pm.l2o c) 2)
          (bedTerm P inc (pm.dzdx c) (pm.dzdy c) (u c).q.h).1 (bedTerm P inc (pm.dzdx c) (pm.dzdy c) (u c).q.h).2).map fun t => (O.x t.1 t.2, O.y t.1 t.2) := hf
    simp only [e1, e2, e3, e4, e5, e6, e7]
    rw [bedTerm_frame]
    dsimp only
    rw [e8, hf', Option.map_map, Option.map_map]
    congr 1
    funext t
    simp only [Function.comp]
    rw [← addOwnedT_frame]
    congr 1
    refine O.comps_ext _ _ ?_ ?_ fun d h1 h2 => ?_
    · simp only [one_ne_zero, if_true, if_false, if_neg (show ¬ (2 : ℕ) = 0 by norm_num), if_neg (show ¬ (2 : ℕ) = 1 by norm_num), Ortho.x]; ring
    · simp only [one_ne_zero, if_true, if_false, if_neg (show ¬ (2 : ℕ) = 0 by norm_num), if_neg (show ¬ (2 : ℕ) = 1 by norm_num), Ortho.y]; ring
    · simp only [if_neg h1, if_neg h2]
      by_cases h0 : d = 0
      · rw [if_pos h0, if_pos h0]; rfl
      · rw [if_neg h0, if_neg h0]
        have es : O.tvec src (pm.l2o c) d = src (pm.l2o c) d := O.comps_else _ d h1 h2
        rw [es]
        have ht : tracerSource P (mann (tracerManningIndex pm c)) (O.tcons (u c)) (src (pm.l2o c) d) (d - 3) =
            tracerSource P (mann (tracerManningIndex pm c)) (u c) (src (pm.l2o c) d) (d - 3) := by
          unfold tracerSource
          rw [e4]
          have he : erosionDeposition P.g (mann (tracerManningIndex pm c)) (O.tcons (u c)).q ((O.tcons (u c)).hc (d - 3)) =
              erosionDeposition P.g (mann (tracerManningIndex pm c)) (u c).q ((u c).hc (d - 3)) := by
            unfold erosionDeposition
            have hv : (O.tcons (u c)).q.hu / (O.tcons (u c)).q.h * ((O.tcons (u c)).q.hu / (O.tcons (u c)).q.h) +
                (O.tcons (u c)).q.hv / (O.tcons (u c)).q.h * ((O.tcons (u c)).q.hv / (O.tcons (u c)).q.h) =
                (u c).q.hu / (u c).q.h * ((u c).q.hu / (u c).q.h) + (u c).q.hv / (u c).q.h * ((u c).q.hv / (u c).q.h) := by
              show O.x (u c).q.hu (u c).q.hv / (u c).q.h * (O.x (u c).q.hu (u c).q.hv / (u c).q.h) +
                O.y (u c).q.hu (u c).q.hv / (u c).q.h * (O.y (u c).q.hu (u c).q.hv / (u c).q.h) = _
              rw [← O.x_div, ← O.y_div, O.dot]
            rw [hv]; rfl
          rw [he]
        rw [ht]
  · rw [if_neg h, if_neg (show ¬ (O.mesh pm).owned c = true from h)]
    rfl

theorem tvec_zero (O : Ortho) : (fun _ _ => 0 : ℕ → ℕ → ℝ) = O.tvec fun _ _ => 0 := by
  funext i; exact O.comps_zero

theorem tracerDiv_frame (O : Ortho) (hr : Bool) (sv : TSolver) (P : FlowParams) (n : ℕ) (pm : PMesh) (bnd : List TBEdge) (u : ℕ → TCons) :
    tracerDiv hr sv P n (O.mesh pm) (bnd.map O.tbedge) (fun c => O.tcons (u c)) = (tracerDiv hr sv P n pm bnd u).map O.tvec := by
  have h1 : ∀ (G : (ℕ → ℕ → ℝ) → IEdge → Option (ℕ → ℕ → ℝ)) (F : (ℕ → ℕ → ℝ) → IEdge → Option (ℕ → ℕ → ℝ)),
      (∀ f a, G (O.tvec f) (O.iedge a) = (F f a).map O.tvec) →
      (((O.mesh pm).internal.foldlM G fun _ _ => 0).bind fun f => (bnd.map O.tbedge).foldlM (tracerBEdge sv P n (O.mesh pm) fun c => O.tcons (u c)) f) =
        ((pm.internal.foldlM F fun _ _ => 0).bind fun f => bnd.foldlM (tracerBEdge sv P n pm u) f).map O.tvec := by
    intro G F h
    have a := foldlM_tframe O O.iedge F G h pm.internal fun _ _ => 0
    rw [← tvec_zero] at a
    have a' : (O.mesh pm).internal.foldlM G (fun _ _ => 0) = (pm.internal.foldlM F fun _ _ => 0).map O.tvec := a
    rw [a']
    cases pm.internal.foldlM F (fun _ _ => 0) with
    | none => rfl
    | some f1 => exact foldlM_tframe O O.tbedge _ _ (tracerBEdge_frame O sv P n pm u) bnd f1
  unfold tracerDiv
  cases hr with
  | true => exact h1 _ _ (hrTEdge_frame O sv P n pm u)
  | false => exact h1 _ _ (tracerEdge_frame O sv P n pm u)

/-- C124 (right-hand side of a process). In a run with tracers computed in other axes, from the same depths and tracers, with momenta, sources, boundary values, normals and bed slopes in
those axes, the right-hand side of a process is the same in those axes: so are the changes of depth and of every tracer, and the momenta turn. With both Riemann solvers, with or without
hydrostatic reconstruction, with any number of tracers; it is undefined in the one if in the other. -/
theorem C124_rhs (O : Ortho) (hr : Bool) (sv : TSolver) (P : FlowParams) (n : ℕ) (pm : PMesh) (bnd : List TBEdge) (dt : ℝ) (src : ℕ → ℕ → ℝ) (mann : ℕ → ℝ) (u : ℕ → TCons) :
    tracerRhs hr sv P n (O.mesh pm) (bnd.map O.tbedge) dt (O.tvec src) mann (fun c => O.tcons (u c)) = (tracerRhs hr sv P n pm bnd dt src mann u).map O.tvec := by
  unfold tracerRhs
  rw [tracerDiv_frame]
  cases tracerDiv hr sv P n pm bnd u with
  | none => rfl
  | some fd =>
    simp only [Option.map_some, Option.bind_some]
    unfold applyTracerSource
    have h3 := foldlM_tframe O id _ _ (tracerSourceCell_frame O P (!hr) n pm dt src mann fd u) (List.range pm.numCells) fd
    rw [List.map_id] at h3
    exact h3

/-- Two cells with one tracer, behind a wall and an open boundary, in axes turned by the angle of a 3-4-5 triangle. -/
example (hr : Bool) (sv : TSolver) (f : ℕ → ℕ → ℝ)
    (h : tracerRhs hr sv exParams 1 (exSquares 3) [⟨0, 1, 0, -1, .reflecting⟩, ⟨1, 1, 0, 1, .dirichlet ⟨⟨1, 0.5, 0⟩, fun _ => 0.2⟩⟩] 1 (fun _ d => if d = 3 then 0.1 else 0) (fun _ => 0.03)
      (fun c => if c = 0 then ⟨⟨2, 1, -1⟩, fun _ => 0.5⟩ else ⟨⟨1, 0, 2⟩, fun _ => 3⟩) = some f) :
    tracerRhs hr sv exParams 1 (turn345.mesh (exSquares 3)) ([⟨0, 1, 0, -1, .reflecting⟩, ⟨1, 1, 0, 1, .dirichlet ⟨⟨1, 0.5, 0⟩, fun _ => 0.2⟩⟩].map turn345.tbedge) 1
      (turn345.tvec fun _ d => if d = 3 then 0.1 else 0) (fun _ => 0.03) (fun c => turn345.tcons (if c = 0 then ⟨⟨2, 1, -1⟩, fun _ => 0.5⟩ else ⟨⟨1, 0, 2⟩, fun _ => 3⟩)) =
      some (turn345.tvec f) := by
  rw [C124_rhs turn345 hr sv exParams 1 (exSquares 3) _ 1 _ _ fun c => if c = 0 then ⟨⟨2, 1, -1⟩, fun _ => 0.5⟩ else ⟨⟨1, 0, 2⟩, fun _ => 3⟩, h]; rfl

/-- C124: in particular the change of the depth and of every tracer in every cell is the same number in all axes. -/
theorem C124_scalars (O : Ortho) (hr : Bool) (sv : TSolver) (P : FlowParams) (n : ℕ) (pm : PMesh) (bnd : List TBEdge) (dt : ℝ) (src : ℕ → ℕ → ℝ) (mann : ℕ → ℝ) (u : ℕ → TCons)
    (f : ℕ → ℕ → ℝ) (h : tracerRhs hr sv P n pm bnd dt src mann u = some f) :
    ∃ f', tracerRhs hr sv P n (O.mesh pm) (bnd.map O.tbedge) dt (O.tvec src) mann (fun c => O.tcons (u c)) = some f' ∧
      ∀ c d, d ≠ 1 → d ≠ 2 → f' c d = f c d := by
  refine ⟨O.tvec f, by rw [C124_rhs, h]; rfl, fun c d h1 h2 => O.comps_else (f c) d h1 h2⟩

/-- C124 (elevation). Measuring the bed elevations from another level does not change the right-hand side of a run with tracers. -/
theorem C124_datum (k : ℝ) (hr : Bool) (sv : TSolver) (P : FlowParams) (n : ℕ) (pm : PMesh) (bnd : List TBEdge) (dt : ℝ) (src : ℕ → ℕ → ℝ) (mann : ℕ → ℝ) (u : ℕ → TCons) :
    tracerRhs hr sv P n (raiseBed k pm) bnd dt src mann u = tracerRhs hr sv P n pm bnd dt src mann u := by
  have hL : ∀ (z z' : ℝ) (w : TCons), hrTState P (z + k) (max (z + k) (z' + k)) w = hrTState P z (max z z') w := by
    intro z z' w; unfold hrTState hrState; rw [hr_raise]
  have hR : ∀ (z z' : ℝ) (w : TCons), hrTState P (z' + k) (max (z + k) (z' + k)) w = hrTState P z' (max z z') w := by
    intro z z' w; rw [max_comm, hL, max_comm]
  have e1 : hrTEdge sv P n (raiseBed k pm) u = hrTEdge sv P n pm u := by
    funext f e
    unfold hrTEdge
    cases e.right with
    | none => rfl
    | some r => simp only [raiseBed, hL, hR]; rfl
  unfold tracerRhs tracerDiv tracerDivergenceHR
  rw [e1]
  rfl

/-- Muddy water at rest over an uneven bed, between walls, in axes turned by the angle of a 3-4-5 triangle: the step is defined, and the depths stay. -/
example (hc : ℕ → ℕ → ℝ) (mann : ℕ → ℝ) :
    ∃ f, tracerRhs true .upwind ⟨9.806, 1e-7, 0.01, 1e-10⟩ 2 (turn345.mesh (exSquares 0.5)) (exWalls.map turn345.tbedge) 0.1 (turn345.tvec fun _ _ => 0) mann
        (fun c => turn345.tcons ⟨restState 1 ((exSquares 0.5).zc c), hc c⟩) = some f ∧ ∀ c < 2, f c 0 = 0 := by
  obtain ⟨f, h1, h2⟩ := C83_rest_flow (sv := .upwind) (P := ⟨9.806, 1e-7, 0.01, 1e-10⟩) (n := 2)
    (pm := exSquares 0.5) (bnd := exWalls) (dt := 0.1) mann (eta := 1) (src := fun _ _ => 0)
    (u := fun c => ⟨restState 1 ((exSquares 0.5).zc c), hc c⟩) (by norm_num) (by norm_num) (by norm_num)
    (by norm_num) (exSquares_inj _) (by rw [exWalls_flow]; exact exSquares_valid _)
    (by rw [exWalls_flow]; exact exSquares_closed _)
    (by
      intro c hc
      right
      simp only [exSquares]
      split <;> norm_num)
    (by
      intro e he
      simp only [exWalls, List.mem_cons, List.not_mem_nil, or_false] at he
      rcases he with h | h | h | h | h | h <;> subst h <;> exact ⟨by norm_num [exSquares], Or.inl rfl⟩)
    (fun _ _ _ => rfl) (fun _ _ => rfl)
  obtain ⟨f', g1, g2⟩ := C124_scalars turn345 true .upwind ⟨9.806, 1e-7, 0.01, 1e-10⟩ 2 (exSquares 0.5) exWalls 0.1 _ mann _ f h1
  exact ⟨f', g1, fun c hc => (g2 c 0 (by norm_num) (by norm_num)).trans (h2 c hc rfl 0 (by norm_num))⟩

example (f : ℕ → ℕ → ℝ) (h : tracerRhs false .upwind exParams 1 (exSquares 0) [] 1 (fun _ _ => 0) (fun _ => 0.03)
    (fun c => if c = 0 then ⟨⟨2, 1, -1⟩, fun _ => 0.5⟩ else ⟨⟨1, 0, 2⟩, fun _ => 3⟩) = some f) :
    ∃ f', tracerRhs false .upwind exParams 1 (quarterTurn.mesh (exSquares 0)) [] 1 (quarterTurn.tvec fun _ _ => 0) (fun _ => 0.03)
      (fun c => quarterTurn.tcons (if c = 0 then ⟨⟨2, 1, -1⟩, fun _ => 0.5⟩ else ⟨⟨1, 0, 2⟩, fun _ => 3⟩)) = some f' ∧ f' 1 3 = f 1 3 := by
  obtain ⟨f', h1, h2⟩ := C124_scalars quarterTurn false .upwind exParams 1 (exSquares 0) [] 1 _ _ _ f h
  exact ⟨f', h1, h2 1 3 (by norm_num) (by norm_num)⟩

example : tracerRhs true .upwind exParams 1 (raiseBed 100 (exSquares 3)) [⟨1, 1, 0, 1, .reflecting⟩] 1 (fun _ _ => 0.1) (fun _ => 0.03) (fun _ => ⟨⟨2, 1, 0⟩, fun _ => 0.5⟩) =
    tracerRhs true .upwind exParams 1 (exSquares 3) [⟨1, 1, 0, 1, .reflecting⟩] 1 (fun _ _ => 0.1) (fun _ => 0.03) (fun _ => ⟨⟨2, 1, 0⟩, fun _ => 0.5⟩) :=
  C124_datum 100 _ _ _ _ _ _ _ _ _ _

/-! ### CEED -/

theorem tracerVelocitiesCeed_frame (O : Ortho) (tinyH : ℝ) (a b : TCons) :
    tracerVelocitiesCeed tinyH (O.tcons a) (O.tcons b) = (tracerVelocitiesCeed tinyH a b).map fun s => (O.tprim s.1, O.tprim s.2) := by
  unfold tracerVelocitiesCeed safeDiv
  have e1 : ∀ w : TCons, (O.tcons w).q.h = w.q.h := fun _ => rfl
  have e2 : ∀ w : TCons, (O.tcons w).q.hu = O.x w.q.hu w.q.hv := fun _ => rfl
  have e3 : ∀ w : TCons, (O.tcons w).q.hv = O.y w.q.hu w.q.hv := fun _ => rfl
  have e4 : ∀ w : TCons, (O.tcons w).hc = w.hc := fun _ => rfl
  simp only [e1, e2, e3, e4]
  by_cases ha : a.q.h > tinyH
  · simp only [if_pos ha]
    by_cases ha0 : a.q.h = 0
    · simp only [if_pos ha0]; rfl
    · simp only [if_neg ha0, Option.bind_some]
      by_cases hb : b.q.h > tinyH
      · simp only [if_pos hb]
        by_cases hb0 : b.q.h = 0
        · simp only [if_pos hb0]; rfl
        · simp only [if_neg hb0, Option.bind_some]
          rw [if_neg (by tauto), if_neg (by tauto)]
          simp only [Option.map_some, Ortho.tprim, Ortho.prim, O.x_div, O.y_div]
      · simp only [if_neg hb, Option.bind_some]
        by_cases hc : a.q.h > tinyH ∧ (a.q.h = 0 ∨ b.q.h = 0)
        · rw [if_pos hc, if_pos hc]; rfl
        · rw [if_neg hc, if_neg hc]
          simp only [Option.map_some, Ortho.tprim, Ortho.prim, O.x_div, O.y_div, O.x_zero, O.y_zero]
  · simp only [if_neg ha, Option.bind_some]
    by_cases hb : b.q.h > tinyH
    · simp only [if_pos hb]
      by_cases hb0 : b.q.h = 0
      · simp only [if_pos hb0]; rfl
      · simp only [if_neg hb0, Option.bind_some]
        rw [if_neg (by tauto), if_neg (by tauto)]
        simp only [Option.map_some, Ortho.tprim, Ortho.prim, O.x_div, O.y_div, O.x_zero, O.y_zero]
    · simp only [if_neg hb, Option.bind_some]
      rw [if_neg (show ¬ (a.q.h > tinyH ∧ (a.q.h = 0 ∨ b.q.h = 0)) from fun h => ha h.1)]
      simp only [Option.map_some, Ortho.tprim, Ortho.prim, O.x_zero, O.y_zero]

/-- C124 (edge, CEED). The same for the fluxes of the CEED backend. -/
theorem C124_flux_ceed (O : Ortho) (sv : TSolver) (g tinyH : ℝ) (n : ℕ) (a b : TCons) (sn cn : ℝ) :
    tracerFluxCeed sv g tinyH n (O.tcons a) (O.tcons b) (O.y cn sn) (O.x cn sn) = (tracerFluxCeed sv g tinyH n a b sn cn).map O.comps := by
  unfold tracerFluxCeed
  by_cases h : a.q.h > tinyH ∨ b.q.h > tinyH
  · rw [if_pos h, if_pos (show (O.tcons a).q.h > tinyH ∨ (O.tcons b).q.h > tinyH from h), tracerVelocitiesCeed_frame]
    cases tracerVelocitiesCeed tinyH a b with
    | none => rfl
    | some s =>
      simp only [Option.map_some, Option.bind_some]
      have he : roeEigCeed g (O.tprim s.1).p (O.tprim s.2).p (O.y cn sn) (O.x cn sn) = O.eig (roeEigCeed g s.1.p s.2.p sn cn) :=
        roeEigCeed_frame O g s.1.p s.2.p sn cn
      by_cases hd : RoeDefined s.1.p.h s.2.p.h
      · rw [if_pos hd, if_pos (show RoeDefined (O.tprim s.1).p.h (O.tprim s.2).p.h from hd), he]
        cases sv with
        | roe => exact congrArg some (tracerCombine_frame O g n s.1 s.2 _ sn cn)
        | upwind => exact congrArg some (upwindCombine_frame O g s.1 s.2 _ sn cn)
      · rw [if_neg hd, if_neg (show ¬ RoeDefined (O.tprim s.1).p.h (O.tprim s.2).p.h from hd)]; rfl
  · rw [if_neg h, if_neg (show ¬ ((O.tcons a).q.h > tinyH ∨ (O.tcons b).q.h > tinyH) from h)]
    exact congrArg some O.comps_zero

example : tracerFluxCeed .upwind 9.806 1e-7 1 (quarterTurn.tcons ⟨⟨2, 1, -1⟩, fun _ => 3⟩) (quarterTurn.tcons ⟨⟨1, 0, 2⟩, fun _ => 7⟩) (quarterTurn.y 0.6 0.8) (quarterTurn.x 0.6 0.8) =
    (tracerFluxCeed .upwind 9.806 1e-7 1 ⟨⟨2, 1, -1⟩, fun _ => 3⟩ ⟨⟨1, 0, 2⟩, fun _ => 7⟩ 0.8 0.6).map quarterTurn.comps :=
  C124_flux_ceed quarterTurn _ _ _ _ _ _ _ _

theorem addAtT_frame (O : Ortho) (f : ℕ → ℕ → ℝ) (i : ℕ) (F : ℕ → ℝ) (s : ℝ) :
    addAtT (O.tvec f) i (O.comps F) s = O.tvec (addAtT f i F s) := by
  unfold addAtT
  funext k
  show (if k = i then fun d => O.comps (f k) d + O.comps F d * s else O.comps (f k)) = O.comps (if k = i then fun d => f k d + F d * s else f k)
  by_cases hi : k = i
  · rw [if_pos hi, if_pos hi]
    refine O.comps_ext _ _ ?_ ?_ fun d h1 h2 => ?_
    · rw [O.comps_one, O.comps_one]; unfold Ortho.x; ring
    · rw [O.comps_two, O.comps_two]; unfold Ortho.y; ring
    · rw [O.comps_else _ _ h1 h2, O.comps_else _ _ h1 h2]
  · rw [if_neg hi, if_neg hi]

theorem comps_add (O : Ortho) (F G : ℕ → ℝ) : (fun d => O.comps F d + O.comps G d) = O.comps fun d => F d + G d := by
  refine O.comps_ext _ _ ?_ ?_ fun d h1 h2 => ?_
  · rw [O.comps_one, O.comps_one]; unfold Ortho.x; ring
  · rw [O.comps_two, O.comps_two]; unfold Ortho.y; ring
  · rw [O.comps_else _ _ h1 h2, O.comps_else _ _ h1 h2]

theorem ceedTEdge_frame (O : Ortho) (sv : TSolver) (P : FlowParams) (n : ℕ) (pm : PMesh) (u : ℕ → TCons) (f : ℕ → ℕ → ℝ) (e : IEdge) :
    ceedTEdge sv P n (O.mesh pm) (fun c => O.tcons (u c)) (O.tvec f) (O.iedge e) = (ceedTEdge sv P n pm u f e).map O.tvec := by
  unfold ceedTEdge Ortho.iedge
  cases hr : e.right with
  | none => rfl
  | some r =>
    simp only [C124_flux_ceed, Option.map_map]
    congr 1
    funext F
    simp only [Function.comp, addAtT_frame]
    rfl

theorem reflectTCeed_frame (O : Ortho) (q : TCons) (sn cn : ℝ) :
    reflectTCeed (O.tcons q) (O.y cn sn) (O.x cn sn) = O.tcons (reflectTCeed q sn cn) := by
  have hr := reflectRight_frame O ⟨q.q.h, q.q.hu, q.q.hv⟩ sn cn
  simp only [reflectRight, Ortho.prim, Prim.mk.injEq, true_and] at hr
  simp only [reflectTCeed, Ortho.tcons, Ortho.cons, TCons.mk.injEq, Cons.mk.injEq, true_and, and_true]
  exact hr

theorem ceedTBEdge_frame (O : Ortho) (sv : TSolver) (P : FlowParams) (n : ℕ) (pm : PMesh) (u : ℕ → TCons) (f : ℕ → ℕ → ℝ) (e : TBEdge) :
    ceedTBEdge sv P n (O.mesh pm) (fun c => O.tcons (u c)) (O.tvec f) (O.tbedge e) = (ceedTBEdge sv P n pm u f e).map O.tvec := by
  have hb : ∀ (bc : TBCond) (q : TCons) (sn cn : ℝ), boundaryTFluxCeed sv P n (O.tbc bc) (O.tcons q) (O.y cn sn) (O.x cn sn) =
      (boundaryTFluxCeed sv P n bc q sn cn).map O.comps := by
    intro bc q sn cn
    cases bc with
    | dirichlet s => exact C124_flux_ceed O sv P.g P.tinyH n q s sn cn
    | reflecting =>
      simp only [Ortho.tbc, boundaryTFluxCeed]
      by_cases h : q.q.h > P.tinyH
      · rw [if_pos h, if_pos (show (O.tcons q).q.h > P.tinyH from h), reflectTCeed_frame, C124_flux_ceed]
      · rw [if_neg h, if_neg (show ¬ (O.tcons q).q.h > P.tinyH from h)]
        exact congrArg some O.comps_zero
  unfold ceedTBEdge Ortho.tbedge
  simp only [hb, Option.map_map]
  congr 1
  funext F
  simp only [Function.comp, addAtT_frame]
  rfl

theorem hrTStateCeed_frame (O : Ortho) (P : FlowParams) (z zmax : ℝ) (s : TCons) : hrTStateCeed P z zmax (O.tcons s) = O.tcons (hrTStateCeed P z zmax s) := by
  unfold hrTStateCeed
  have h : hrState P z zmax (O.tcons s).q = O.prim (hrState P z zmax s.q) := hrState_frame O P z zmax s.q
  rw [h]
  simp only [Ortho.tcons, Ortho.cons, Ortho.prim, TCons.mk.injEq, Cons.mk.injEq, true_and, Ortho.x, Ortho.y]
  exact ⟨⟨by ring, by ring⟩, rfl⟩

theorem ceedTEdgeHR_frame (O : Ortho) (P : FlowParams) (n : ℕ) (pm : PMesh) (u : ℕ → TCons) (f : ℕ → ℕ → ℝ) (e : IEdge) :
    ceedTEdgeHR P n (O.mesh pm) (fun c => O.tcons (u c)) (O.tvec f) (O.iedge e) = (ceedTEdgeHR P n pm u f e).map O.tvec := by
  unfold ceedTEdgeHR Ortho.iedge
  cases hr : e.right with
  | none => rfl
  | some r =>
    have hz : (O.mesh pm).zc = pm.zc := rfl
    have ha : (O.mesh pm).area = pm.area := rfl
    have hl : (O.mesh pm).l2o = pm.l2o := rfl
    have hh : ∀ w : TCons, (O.tcons w).q.h = w.q.h := fun _ => rfl
    have hF : ∀ zL zR a b sn cn, hrTFluxCeed P n zL zR (O.tcons a) (O.tcons b) (O.y cn sn) (O.x cn sn) = (hrTFluxCeed P n zL zR a b sn cn).map O.comps := by
      intro zL zR a b sn cn
      unfold hrTFluxCeed
      simp only [hrTStateCeed_frame, C124_flux_ceed, hh]
      by_cases hd : a.q.h > P.tinyH ∨ b.q.h > P.tinyH
      · rw [if_pos hd, if_pos hd]
      · rw [if_neg hd, if_neg hd]
        exact congrArg some O.comps_zero
    simp only [hz, ha, hl, hh, hrTStateCeed_frame, hF]
    by_cases hd : (u e.left).q.h > P.tinyH ∨ (u r).q.h > P.tinyH
    · rw [if_pos hd, if_pos hd, Option.map_map, Option.map_map]
      congr 1
      funext F
      simp only [Function.comp, hrTCorrection_frame, comps_add, addAtT_frame]
    · rw [if_neg hd, if_neg hd]; rfl

theorem frictionTCeed_frame (O : Ortho) (P : FlowParams) (dt n : ℝ) (w : Cons) (Fx Fy bx bY : ℝ) :
    frictionTCeed P dt n (O.cons w) (O.x Fx Fy) (O.y Fx Fy) (O.x bx bY) (O.y bx bY) =
      (frictionTCeed P dt n w Fx Fy bx bY).map fun t => (O.x t.1 t.2, O.y t.1 t.2) := by
  unfold frictionTCeed safeDiv
  have hc : (O.cons w).h = w.h := rfl
  have hcu : (O.cons w).hu = O.x w.hu w.hv := rfl
  have hcv : (O.cons w).hv = O.y w.hu w.hv := rfl
  simp only [hc, hcu, hcv]
  by_cases h : w.h > P.tinyH
  · simp only [if_pos h]
    by_cases h0 : w.h = 0
    · simp only [if_pos h0]; rfl
    · simp only [if_neg h0, Option.bind_some]
      rw [← O.x_div, ← O.y_div, O.dot]
      generalize P.g * (n * n) * w.h ^ (-(1 : ℝ) / 3) * √(w.hu / w.h * (w.hu / w.h) + w.hv / w.h * (w.hv / w.h)) / w.h = tb
      by_cases hd : w.h = 0 ∨ 1 + dt * tb = 0
      · rw [if_pos hd, if_pos hd]; rfl
      · rw [if_neg hd, if_neg hd]
        simp only [Option.map_some, Option.some.injEq, Prod.mk.injEq, Ortho.x, Ortho.y]
        constructor <;> ring
  · simp only [if_neg h, Option.map_some, O.x_zero, O.y_zero]

theorem erosionDeposition_frame (O : Ortho) (g n : ℝ) (q : Cons) (hc : ℝ) : erosionDeposition g n (O.cons q) hc = erosionDeposition g n q hc := by
  unfold erosionDeposition
  have hv : (O.cons q).hu / (O.cons q).h * ((O.cons q).hu / (O.cons q).h) + (O.cons q).hv / (O.cons q).h * ((O.cons q).hv / (O.cons q).h) =
      q.hu / q.h * (q.hu / q.h) + q.hv / q.h * (q.hv / q.h) := by
    show O.x q.hu q.hv / q.h * (O.x q.hu q.hv / q.h) + O.y q.hu q.hv / q.h * (O.y q.hu q.hv / q.h) = _
    rw [← O.x_div, ← O.y_div, O.dot]
  rw [hv]; rfl

theorem cellTRhsCeed_frame (O : Ortho) (P : FlowParams) (inc : Bool) (n : ℕ) (a b dt mann : ℝ) (src F : ℕ → ℝ) (s : TCons) :
    cellTRhsCeed P inc n (O.x a b) (O.y a b) dt mann (O.comps src) (O.comps F) (O.tcons s) = (cellTRhsCeed P inc n a b dt mann src F s).map O.comps := by
  unfold cellTRhsCeed
  have e4 : (O.tcons s).q.h = s.q.h := rfl
  have e5 : ∀ v : ℕ → ℝ, O.comps v 1 = O.x (v 1) (v 2) := fun v => O.comps_one v
  have e6 : ∀ v : ℕ → ℝ, O.comps v 2 = O.y (v 1) (v 2) := fun v => O.comps_two v
  have e8 : (O.tcons s).q = O.cons s.q := rfl
  simp only [e4, e5, e6, bedTerm_frame]
  rw [e8, frictionTCeed_frame, Option.map_map, Option.map_map]
  congr 1
  funext t
  simp only [Function.comp]
  refine O.comps_ext _ _ ?_ ?_ fun d h1 h2 => ?_
  · simp only [one_ne_zero, if_true, if_false, if_neg (show ¬ (2 : ℕ) = 0 by norm_num), if_neg (show ¬ (2 : ℕ) = 1 by norm_num), Ortho.x]; ring
  · simp only [one_ne_zero, if_true, if_false, if_neg (show ¬ (2 : ℕ) = 0 by norm_num), if_neg (show ¬ (2 : ℕ) = 1 by norm_num), Ortho.y]; ring
  · simp only [if_neg h1, if_neg h2]
    rw [O.comps_else F d h1 h2, O.comps_else src d h1 h2, O.comps_else F 0 (by norm_num) (by norm_num), O.comps_else src 0 (by norm_num) (by norm_num)]
    have ht : tracerSourceCeed P mann (O.tcons s) (src d) (d - 3) = tracerSourceCeed P mann s (src d) (d - 3) := by
      unfold tracerSourceCeed
      rw [e4, e8, erosionDeposition_frame]; rfl
    rw [ht]

theorem ceedTSourceCell_frame (O : Ortho) (P : FlowParams) (inc : Bool) (n : ℕ) (pm : PMesh) (dt : ℝ) (src : ℕ → ℕ → ℝ) (mann : ℕ → ℝ) (fd : ℕ → ℕ → ℝ)
    (u : ℕ → TCons) (f : ℕ → ℕ → ℝ) (c : ℕ) :
    ceedTSourceCell P inc n (O.mesh pm) dt (O.tvec src) mann (O.tvec fd) (fun c => O.tcons (u c)) (O.tvec f) c =
      (ceedTSourceCell P inc n pm dt src mann fd u f c).map O.tvec := by
  unfold ceedTSourceCell
  by_cases h : pm.owned c = true
  · rw [if_pos h, if_pos (show (O.mesh pm).owned c = true from h)]
    have hc := cellTRhsCeed_frame O P inc n (pm.dzdx c) (pm.dzdy c) dt (mann (pm.l2o c)) (src (pm.l2o c)) (fd (pm.l2o c)) (u c)
    have hc' : cellTRhsCeed P inc n ((O.mesh pm).dzdx c) ((O.mesh pm).dzdy c) dt (mann ((O.mesh pm).l2o c)) (O.tvec src ((O.mesh pm).l2o c))
        (O.tvec fd ((O.mesh pm).l2o c)) (O.tcons (u c)) =
        (cellTRhsCeed P inc n (pm.dzdx c) (pm.dzdy c) dt (mann (pm.l2o c)) (src (pm.l2o c)) (fd (pm.l2o c)) (u c)).map O.comps := hc
    rw [hc', Option.map_map, Option.map_map]
    congr 1
    funext F
    funext i
    simp only [Function.comp, Ortho.tvec, Function.update_apply]
    by_cases hi : i = pm.l2o c
    · rw [if_pos hi, if_pos (show i = (O.mesh pm).l2o c from hi)]
    · rw [if_neg hi, if_neg (show ¬ i = (O.mesh pm).l2o c from hi)]
  · rw [if_neg h, if_neg (show ¬ (O.mesh pm).owned c = true from h)]
    rfl

theorem ceedTDiv_frame (O : Ortho) (hr : Bool) (sv : TSolver) (P : FlowParams) (n : ℕ) (pm : PMesh) (bnd : List TBEdge) (u : ℕ → TCons) :
    ceedTDiv hr sv P n (O.mesh pm) (bnd.map O.tbedge) (fun c => O.tcons (u c)) = (ceedTDiv hr sv P n pm bnd u).map O.tvec := by
  have h1 : ∀ (G : (ℕ → ℕ → ℝ) → IEdge → Option (ℕ → ℕ → ℝ)) (F : (ℕ → ℕ → ℝ) → IEdge → Option (ℕ → ℕ → ℝ)),
      (∀ f a, G (O.tvec f) (O.iedge a) = (F f a).map O.tvec) →
      (((O.mesh pm).internal.foldlM G fun _ _ => 0).bind fun f => (bnd.map O.tbedge).foldlM (ceedTBEdge sv P n (O.mesh pm) fun c => O.tcons (u c)) f) =
        ((pm.internal.foldlM F fun _ _ => 0).bind fun f => bnd.foldlM (ceedTBEdge sv P n pm u) f).map O.tvec := by
    intro G F h
    have a := foldlM_tframe O O.iedge F G h pm.internal fun _ _ => 0
    rw [← tvec_zero] at a
    have a' : (O.mesh pm).internal.foldlM G (fun _ _ => 0) = (pm.internal.foldlM F fun _ _ => 0).map O.tvec := a
    rw [a']
    cases pm.internal.foldlM F (fun _ _ => 0) with
    | none => rfl
    | some f1 => exact foldlM_tframe O O.tbedge _ _ (ceedTBEdge_frame O sv P n pm u) bnd f1
  unfold ceedTDiv
  cases hr with
  | true => exact h1 _ _ (ceedTEdgeHR_frame O P n pm u)
  | false => exact h1 _ _ (ceedTEdge_frame O sv P n pm u)

/-- C124 (right-hand side, CEED). The same for the right-hand side of the CEED backend. -/
theorem C124_ceed (O : Ortho) (hr : Bool) (sv : TSolver) (P : FlowParams) (n : ℕ) (pm : PMesh) (bnd : List TBEdge) (dt : ℝ) (src : ℕ → ℕ → ℝ) (mann : ℕ → ℝ) (u : ℕ → TCons) :
    ceedTracerRhs hr sv P n (O.mesh pm) (bnd.map O.tbedge) dt (O.tvec src) mann (fun c => O.tcons (u c)) = (ceedTracerRhs hr sv P n pm bnd dt src mann u).map O.tvec := by
  unfold ceedTracerRhs
  rw [ceedTDiv_frame]
  cases ceedTDiv hr sv P n pm bnd u with
  | none => rfl
  | some fd =>
    simp only [Option.map_some, Option.bind_some]
    have h3 := foldlM_tframe O id _ _ (ceedTSourceCell_frame O P (!hr) n pm dt src mann fd u) (List.range pm.numCells) fd
    rw [List.map_id] at h3
    exact h3

example (f : ℕ → ℕ → ℝ)
    (h : ceedTracerRhs true .roe exParams 1 (exSquares 3) [⟨0, 1, 0, -1, .reflecting⟩] 1 (fun _ _ => 0) (fun _ => 0.03)
      (fun c => if c = 0 then ⟨⟨2, 1, -1⟩, fun _ => 0.5⟩ else ⟨⟨1, 0, 2⟩, fun _ => 3⟩) = some f) :
    ceedTracerRhs true .roe exParams 1 (turn345.mesh (exSquares 3)) ([⟨0, 1, 0, -1, .reflecting⟩].map turn345.tbedge) 1 (turn345.tvec fun _ _ => 0) (fun _ => 0.03)
      (fun c => turn345.tcons (if c = 0 then ⟨⟨2, 1, -1⟩, fun _ => 0.5⟩ else ⟨⟨1, 0, 2⟩, fun _ => 3⟩)) = some (turn345.tvec f) := by
  rw [C124_ceed turn345 true .roe exParams 1 (exSquares 3) _ 1 _ _ fun c => if c = 0 then ⟨⟨2, 1, -1⟩, fun _ => 0.5⟩ else ⟨⟨1, 0, 2⟩, fun _ => 3⟩, h]; rfl

/-- C124 (elevation, CEED). Nor does the level from which elevations are measured matter to the CEED backend. -/
theorem C124_datum_ceed (k : ℝ) (hr : Bool) (sv : TSolver) (P : FlowParams) (n : ℕ) (pm : PMesh) (bnd : List TBEdge) (dt : ℝ) (src : ℕ → ℕ → ℝ) (mann : ℕ → ℝ) (u : ℕ → TCons) :
    ceedTracerRhs hr sv P n (raiseBed k pm) bnd dt src mann u = ceedTracerRhs hr sv P n pm bnd dt src mann u := by
  have hL : ∀ (z z' : ℝ) (w : TCons), hrTStateCeed P (z + k) (max (z + k) (z' + k)) w = hrTStateCeed P z (max z z') w := by
    intro z z' w; unfold hrTStateCeed hrState; rw [hr_raise]
  have hR : ∀ (z z' : ℝ) (w : TCons), hrTStateCeed P (z' + k) (max (z + k) (z' + k)) w = hrTStateCeed P z' (max z z') w := by
    intro z z' w; rw [max_comm, hL, max_comm]
  have e1 : ceedTEdgeHR P n (raiseBed k pm) u = ceedTEdgeHR P n pm u := by
    funext f e
    unfold ceedTEdgeHR hrTFluxCeed
    cases e.right with
    | none => rfl
    | some r => simp only [raiseBed, hL, hR]
  unfold ceedTracerRhs ceedTDiv
  rw [e1]
  rfl

example : ceedTracerRhs true .roe exParams 1 (raiseBed 100 (exSquares 3)) [⟨1, 1, 0, 1, .reflecting⟩] 1 (fun _ _ => 0.1) (fun _ => 0.03) (fun _ => ⟨⟨2, 1, 0⟩, fun _ => 0.5⟩) =
    ceedTracerRhs true .roe exParams 1 (exSquares 3) [⟨1, 1, 0, 1, .reflecting⟩] 1 (fun _ _ => 0.1) (fun _ => 0.03) (fun _ => ⟨⟨2, 1, 0⟩, fun _ => 0.5⟩) :=
  C124_datum_ceed 100 _ _ _ _ _ _ _ _ _ _

end RDy
