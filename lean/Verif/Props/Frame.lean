import Verif.Props.Decomposition
import Verif.Model.Ceed
import Verif.Model.Mesh
import Verif.Model.Muscl
import Verif.Props.Positivity

/-!
C76: the results do not depend on the coordinate axes. Turning or mirroring the axes turns or mirrors the
result, and the zero of the elevations does not matter.
-/

namespace RDy

/-! ### Specification: a change of axes -/

/-- A linear map of the plane that preserves lengths: a rotation or a reflection. -/
structure Ortho where
  p : ℝ
  q : ℝ
  r : ℝ
  s : ℝ
  col1 : p * p + r * r = 1
  col2 : q * q + s * s = 1
  cross : p * q + r * s = 0

namespace Ortho

/-- first and second component of the image of a vector -/
def x (O : Ortho) (a b : ℝ) : ℝ := O.p * a + O.q * b
@[inherit_doc x] def y (O : Ortho) (a b : ℝ) : ℝ := O.r * a + O.s * b

/-- the same state in other axes -/
def prim (O : Ortho) (w : Prim) : Prim := ⟨w.h, O.x w.u w.v, O.y w.u w.v⟩
@[inherit_doc prim] def cons (O : Ortho) (w : Cons) : Cons := ⟨w.h, O.x w.hu w.hv, O.y w.hu w.hv⟩
@[inherit_doc prim] def flux (O : Ortho) (w : Flux) : Flux := ⟨w.m, O.x w.x w.y, O.y w.x w.y⟩
@[inherit_doc prim] def bc (O : Ortho) : BCond → BCond
  | .dirichlet w => .dirichlet (O.cons w)
  | .reflecting => .reflecting
  | .outflow => .outflow

/-- The same mesh in other axes: the normals `(cn, sn)` and the bed slopes turn, and so do the momenta given
on boundaries. -/
def mesh (O : Ortho) (m : PMesh) : PMesh where
  numCells := m.numCells
  area := m.area
  owned := m.owned
  l2o := m.l2o
  internal := m.internal.map fun e => ⟨e.left, e.right, e.len, O.y e.cn e.sn, O.x e.cn e.sn⟩
  boundary := m.boundary.map fun e => ⟨e.cell, e.len, O.y e.cn e.sn, O.x e.cn e.sn, O.bc e.bc⟩
  dzdx c := O.x (m.dzdx c) (m.dzdy c)
  dzdy c := O.y (m.dzdx c) (m.dzdy c)
  zc := m.zc

/-- the determinant, 1 for a rotation and -1 for a reflection -/
def det (O : Ortho) : ℝ := O.p * O.s - O.q * O.r

theorem det_s (O : Ortho) : O.s * O.det = O.p := by
  unfold det; linear_combination O.p * O.col2 - O.q * O.cross
theorem det_r (O : Ortho) : O.r * O.det = -O.q := by
  unfold det; linear_combination -O.q * O.col1 + O.p * O.cross
theorem det_p (O : Ortho) : O.p * O.det = O.s := by
  unfold det; linear_combination O.s * O.col1 - O.r * O.cross
theorem det_q (O : Ortho) : O.q * O.det = -O.r := by
  unfold det; linear_combination -O.r * O.col2 + O.s * O.cross

theorem dot (O : Ortho) (a b c d : ℝ) : O.x a b * O.x c d + O.y a b * O.y c d = a * c + b * d := by
  unfold x y
  linear_combination a * c * O.col1 + b * d * O.col2 + (a * d + b * c) * O.cross

theorem x_smul (O : Ortho) (a b k : ℝ) : O.x (a * k) (b * k) = O.x a b * k := by unfold x; ring
theorem y_smul (O : Ortho) (a b k : ℝ) : O.y (a * k) (b * k) = O.y a b * k := by unfold y; ring
theorem x_div (O : Ortho) (a b k : ℝ) : O.x (a / k) (b / k) = O.x a b / k := by unfold x; ring
theorem y_div (O : Ortho) (a b k : ℝ) : O.y (a / k) (b / k) = O.y a b / k := by unfold y; ring
theorem x_zero (O : Ortho) : O.x 0 0 = 0 := by unfold x; ring
theorem y_zero (O : Ortho) : O.y 0 0 = 0 := by unfold y; ring

end Ortho

/-- the quarter turn -/
def quarterTurn : Ortho := ⟨0, -1, 1, 0, by norm_num, by norm_num, by norm_num⟩

/-- the reflection that exchanges the axes -/
def swapAxes : Ortho := ⟨0, 1, 1, 0, by norm_num, by norm_num, by norm_num⟩

/-! ### The Roe flux -/

theorem uperp_frame (O : Ortho) (u v sn cn : ℝ) :
    uperp (O.x u v) (O.y u v) (O.y cn sn) (O.x cn sn) = uperp u v sn cn := by
  unfold uperp; exact O.dot u v cn sn

theorem roeAvg_frame_x (O : Ortho) (hl hr ul vl ur vr : ℝ) :
    roeAvg hl hr (O.x ul vl) (O.x ur vr) = O.x (roeAvg hl hr ul ur) (roeAvg hl hr vl vr) := by
  unfold roeAvg Ortho.x; ring

theorem roeAvg_frame_y (O : Ortho) (hl hr ul vl ur vr : ℝ) :
    roeAvg hl hr (O.y ul vl) (O.y ur vr) = O.y (roeAvg hl hr ul ur) (roeAvg hl hr vl vr) := by
  unfold roeAvg Ortho.y; ring

theorem sub_frame_x (O : Ortho) (a b c d : ℝ) : O.x a b - O.x c d = O.x (a - c) (b - d) := by
  unfold Ortho.x; ring

theorem sub_frame_y (O : Ortho) (a b c d : ℝ) : O.y a b - O.y c d = O.y (a - c) (b - d) := by
  unfold Ortho.y; ring

theorem tangent_frame (O : Ortho) (a b sn cn : ℝ) :
    -(O.x a b) * O.y cn sn + O.y a b * O.x cn sn = O.det * (-a * sn + b * cn) := by
  unfold Ortho.x Ortho.y Ortho.det; ring

theorem sideFlux_frame (O : Ortho) (g : ℝ) (w : Prim) (sn cn : ℝ) :
    sideFlux g (O.prim w) (O.y cn sn) (O.x cn sn) = O.flux (sideFlux g w sn cn) := by
  unfold sideFlux Ortho.prim Ortho.flux
  simp only [uperp_frame]
  ext
  · rfl
  · simp only [Ortho.x]; ring
  · simp only [Ortho.y]; ring

/-- the eigenspectrum in other axes -/
def Ortho.eig (O : Ortho) (e : RoeEig) : RoeEig :=
  ⟨e.a1, e.a2, e.a3, e.w1, O.det * e.w2, e.w3, O.x e.uhat e.vhat, O.y e.uhat e.vhat, e.chat, e.amax⟩

theorem roeEig_frame (O : Ortho) (g : ℝ) (L R : Prim) (sn cn : ℝ) :
    roeEig g (O.prim L) (O.prim R) (O.y cn sn) (O.x cn sn) = O.eig (roeEig g L R sn cn) := by
  unfold roeEig Ortho.prim Ortho.eig
  simp only [roeAvg_frame_x, roeAvg_frame_y, sub_frame_x, sub_frame_y, uperp_frame, tangent_frame]
  congr 1
  ring

theorem roeEigCeed_frame (O : Ortho) (g : ℝ) (L R : Prim) (sn cn : ℝ) :
    roeEigCeed g (O.prim L) (O.prim R) (O.y cn sn) (O.x cn sn) = O.eig (roeEigCeed g L R sn cn) := by
  unfold roeEigCeed Ortho.prim Ortho.eig
  simp only [roeAvg_frame_x, roeAvg_frame_y, sub_frame_x, sub_frame_y, uperp_frame, tangent_frame]
  congr 1
  ring

theorem roeCombine_frame (O : Ortho) (FL FR : Flux) (e : RoeEig) (sn cn : ℝ) :
    roeCombine (O.flux FL) (O.flux FR) (O.eig e) (O.y cn sn) (O.x cn sn) =
      O.flux (roeCombine FL FR e sn cn) := by
  unfold roeCombine Ortho.flux Ortho.eig
  ext
  · ring
  · simp only [Ortho.x, Ortho.y]
    linear_combination (0.5 * e.a2 * e.w2 * cn) * O.det_r + (0.5 * e.a2 * e.w2 * sn) * O.det_s
  · simp only [Ortho.x, Ortho.y]
    linear_combination (-0.5 * e.a2 * e.w2 * cn) * O.det_p - (0.5 * e.a2 * e.w2 * sn) * O.det_q

/-- C76 (edge). The Roe flux between two states in other axes is the flux, in the other axes; the wave speed
does not change. -/
theorem C76_roe (O : Ortho) (g : ℝ) (L R : Prim) (sn cn : ℝ) :
    roeFlux g (O.prim L) (O.prim R) (O.y cn sn) (O.x cn sn) =
      (roeFlux g L R sn cn).map fun F => (O.flux F.1, F.2) := by
  unfold roeFlux
  rw [sideFlux_frame, sideFlux_frame, roeEig_frame, roeCombine_frame]
  by_cases h : RoeDefined L.h R.h
  · rw [if_pos h, if_pos (show RoeDefined (O.prim L).h (O.prim R).h from h)]
    rfl
  · rw [if_neg h, if_neg (show ¬ RoeDefined (O.prim L).h (O.prim R).h from h)]
    rfl

/-- still water of depth 1 against an x-edge and against a y-edge -/
example : roeFlux 9.8 ⟨1, 0, 2⟩ ⟨1, 0, 1⟩ 1 0 =
    (roeFlux 9.8 ⟨1, 2, 0⟩ ⟨1, 1, 0⟩ 0 1).map fun F => (⟨F.1.m, F.1.y, F.1.x⟩, F.2) := by
  have := C76_roe swapAxes 9.8 ⟨1, 2, 0⟩ ⟨1, 1, 0⟩ 0 1
  simpa [swapAxes, Ortho.prim, Ortho.flux, Ortho.x, Ortho.y] using this

theorem usedFlux_frame (O : Ortho) (g tinyH : ℝ) (L R : Prim) (sn cn : ℝ) :
    usedFlux g tinyH (O.prim L) (O.prim R) (O.y cn sn) (O.x cn sn) =
      (usedFlux g tinyH L R sn cn).map O.flux := by
  unfold usedFlux
  rw [C76_roe]
  by_cases h : ¬ (R.h < tinyH ∧ L.h < tinyH)
  · rw [if_pos h, if_pos (show ¬ ((O.prim R).h < tinyH ∧ (O.prim L).h < tinyH) from h), Option.map_map,
      Option.map_map]
    rfl
  · rw [if_neg h, if_neg (show ¬¬ ((O.prim R).h < tinyH ∧ (O.prim L).h < tinyH) from h)]
    simp [Ortho.flux, O.x_zero, O.y_zero]

theorem velocities_frame (O : Ortho) (tinyH hAnuga : ℝ) (w : Cons) :
    velocities tinyH hAnuga (O.cons w) = O.prim (velocities tinyH hAnuga w) := by
  unfold velocities
  by_cases h : w.h < tinyH
  · rw [if_pos h, if_pos (show (O.cons w).h < tinyH from h)]
    simp [Ortho.prim, Ortho.cons, O.x_zero, O.y_zero]
  · rw [if_neg h, if_neg (show ¬ (O.cons w).h < tinyH from h)]
    simp only [Ortho.prim, Ortho.cons, Ortho.x, Ortho.y, Prim.mk.injEq, true_and]
    constructor <;> ring

theorem reflectRight_frame (O : Ortho) (L : Prim) (sn cn : ℝ) :
    reflectRight (O.prim L) (O.y cn sn) (O.x cn sn) = O.prim (reflectRight L sn cn) := by
  have e1 := O.col1
  have e2 := O.col2
  have e3 := O.cross
  have hn := O.dot cn sn cn sn
  have hu := O.dot L.u L.v cn sn
  unfold reflectRight Ortho.prim
  simp only [Prim.mk.injEq, true_and]
  constructor
  · have h1 : O.x L.u L.v * (O.y cn sn * O.y cn sn - O.x cn sn * O.x cn sn) -
        O.y L.u L.v * (2 * O.y cn sn * O.x cn sn) =
        O.x L.u L.v * (O.x cn sn * O.x cn sn + O.y cn sn * O.y cn sn) -
        2 * (O.x L.u L.v * O.x cn sn + O.y L.u L.v * O.y cn sn) * O.x cn sn := by ring
    rw [h1, hn, hu]; simp only [Ortho.x]; ring
  · have h1 : -O.x L.u L.v * (2 * O.y cn sn * O.x cn sn) -
        O.y L.u L.v * (O.y cn sn * O.y cn sn - O.x cn sn * O.x cn sn) =
        O.y L.u L.v * (O.x cn sn * O.x cn sn + O.y cn sn * O.y cn sn) -
        2 * (O.x L.u L.v * O.x cn sn + O.y L.u L.v * O.y cn sn) * O.y cn sn := by ring
    rw [h1, hn, hu]; simp only [Ortho.y]; ring

theorem outflowStates_frame (O : Ortho) (g : ℝ) (L : Prim) (sn cn : ℝ) :
    outflowStates g (O.prim L) (O.y cn sn) (O.x cn sn) =
      (O.prim (outflowStates g L sn cn).1, O.prim (outflowStates g L sn cn).2) := by
  unfold outflowStates
  have hu : uperp (O.prim L).u (O.prim L).v (O.y cn sn) (O.x cn sn) = uperp L.u L.v sn cn :=
    uperp_frame O L.u L.v sn cn
  rw [hu]
  by_cases h : uperp L.u L.v sn cn < 0
  · rw [if_pos h, if_pos h]
    simp [Ortho.prim, O.x_zero, O.y_zero]
  · rw [if_neg h, if_neg h]
    simp only [Ortho.prim, Prod.mk.injEq, Prim.mk.injEq, true_and]
    simp only [Ortho.x, Ortho.y]
    constructor <;> ring

theorem boundaryStates_frame (O : Ortho) (g tinyH hAnuga : ℝ) (bc : BCond) (w : Cons) (sn cn : ℝ) :
    boundaryStates g tinyH hAnuga (O.bc bc) (O.cons w) (O.y cn sn) (O.x cn sn) =
      (O.prim (boundaryStates g tinyH hAnuga bc w sn cn).1,
       O.prim (boundaryStates g tinyH hAnuga bc w sn cn).2) := by
  cases bc with
  | dirichlet qb => simp only [Ortho.bc, boundaryStates, velocities_frame]
  | reflecting => simp only [Ortho.bc, boundaryStates, velocities_frame, reflectRight_frame]
  | outflow => simp only [Ortho.bc, boundaryStates, velocities_frame, outflowStates_frame]

/-! ### Loops -/

theorem add_frame (O : Ortho) (a b : Flux) : O.flux (a.add b) = (O.flux a).add (O.flux b) := by
  unfold Ortho.flux Flux.add Ortho.x Ortho.y
  ext <;> simp only <;> ring

theorem smul_frame (O : Ortho) (k : ℝ) (a : Flux) : O.flux (a.smul k) = (O.flux a).smul k := by
  unfold Ortho.flux Flux.smul
  simp only [O.x_smul, O.y_smul]

theorem zero_frame (O : Ortho) : O.flux Flux.zero = Flux.zero := by
  simp [Ortho.flux, Flux.zero, O.x_zero, O.y_zero]

/-- all entries of a right-hand side in other axes -/
def Ortho.vec (O : Ortho) (f : ℕ → Flux) : ℕ → Flux := fun i => O.flux (f i)

theorem addAt_frame (O : Ortho) (f : ℕ → Flux) (i : ℕ) (F : Flux) :
    addAt (O.vec f) i (O.flux F) = O.vec (addAt f i F) := by
  funext j
  unfold addAt Ortho.vec
  by_cases h : j = i
  · simp only [h, if_true, add_frame]
  · simp only [h, if_false]

theorem addOwned_frame (O : Ortho) (pm : PMesh) (f : ℕ → Flux) (c : ℕ) (F : Flux) :
    addOwned (O.mesh pm) (O.vec f) c (O.flux F) = O.vec (addOwned pm f c F) := by
  unfold addOwned
  by_cases h : pm.owned c = true
  · rw [if_pos h, if_pos (show (O.mesh pm).owned c = true from h), addAt_frame]
    rfl
  · rw [if_neg h, if_neg (show ¬ (O.mesh pm).owned c = true from h)]

theorem addBoth_frame (O : Ortho) (pm : PMesh) (f : ℕ → Flux) (l r : ℕ) (FL FR : Flux) :
    addBoth (O.mesh pm) (O.vec f) l r (O.flux FL) (O.flux FR) = O.vec (addBoth pm f l r FL FR) := by
  unfold addBoth
  rw [addOwned_frame, addOwned_frame]

/-- loops commute with a change of axes if their bodies do -/
theorem foldlM_frame {α β : Type} (O : Ortho) (t : α → β) (F : (ℕ → Flux) → α → Option (ℕ → Flux))
    (G : (ℕ → Flux) → β → Option (ℕ → Flux))
    (h : ∀ f a, G (O.vec f) (t a) = (F f a).map O.vec) (l : List α) (f : ℕ → Flux) :
    (l.map t).foldlM G (O.vec f) = (l.foldlM F f).map O.vec := by
  induction l generalizing f with
  | nil => rfl
  | cons a l ih =>
    rw [List.map_cons, List.foldlM_cons, List.foldlM_cons, h]
    cases hF : F f a with
    | none => rfl
    | some f' => exact ih f'

/-- an internal edge in other axes -/
def Ortho.iedge (O : Ortho) (e : IEdge) : IEdge := ⟨e.left, e.right, e.len, O.y e.cn e.sn, O.x e.cn e.sn⟩

/-- a boundary edge in other axes -/
def Ortho.bedge (O : Ortho) (e : BEdge) : BEdge :=
  ⟨e.cell, e.len, O.y e.cn e.sn, O.x e.cn e.sn, O.bc e.bc⟩

theorem interiorEdge_frame (O : Ortho) (P : FlowParams) (pm : PMesh) (u : ℕ → Cons) (f : ℕ → Flux)
    (e : IEdge) :
    interiorEdge P (O.mesh pm) (fun c => O.cons (u c)) (O.vec f) (O.iedge e) =
      (interiorEdge P pm u f e).map O.vec := by
  unfold interiorEdge Ortho.iedge
  cases hr : e.right with
  | none => rfl
  | some r =>
    simp only [velocities_frame, usedFlux_frame, Option.map_map]
    congr 1
    funext F
    simp only [Function.comp]
    rw [← addBoth_frame, smul_frame, smul_frame]
    rfl

theorem hrState_frame (O : Ortho) (P : FlowParams) (z zmax : ℝ) (w : Cons) :
    hrState P z zmax (O.cons w) = O.prim (hrState P z zmax w) := by
  unfold hrState
  by_cases h : w.h > P.tinyH
  · simp only [if_pos h, if_pos (show (O.cons w).h > P.tinyH from h)]
    simp only [Ortho.prim, Ortho.cons, Ortho.x, Ortho.y, Prim.mk.injEq, true_and]
    constructor <;> ring
  · simp only [if_neg h, if_neg (show ¬ (O.cons w).h > P.tinyH from h)]
    simp [Ortho.prim, Ortho.cons, O.x_zero, O.y_zero]

theorem hrFlux_frame (O : Ortho) (P : FlowParams) (L R : Prim) (sn cn : ℝ) :
    hrFlux P (O.prim L) (O.prim R) (O.y cn sn) (O.x cn sn) = (hrFlux P L R sn cn).map O.flux := by
  unfold hrFlux
  rw [C76_roe]
  by_cases h : L.h > P.tinyH ∨ R.h > P.tinyH
  · rw [if_pos h, if_pos (show (O.prim L).h > P.tinyH ∨ (O.prim R).h > P.tinyH from h), Option.map_map,
      Option.map_map]
    rfl
  · rw [if_neg h, if_neg (show ¬ ((O.prim L).h > P.tinyH ∨ (O.prim R).h > P.tinyH) from h)]
    simp [Ortho.flux, O.x_zero, O.y_zero]

theorem hrCorrection_frame (O : Ortho) (P : FlowParams) (h hrec sn cn : ℝ) :
    hrCorrection P h hrec (O.y cn sn) (O.x cn sn) = O.flux (hrCorrection P h hrec sn cn) := by
  unfold hrCorrection Ortho.flux
  simp only [Ortho.x, Ortho.y]
  ext <;> simp only <;> ring

theorem hrEdge_frame (O : Ortho) (P : FlowParams) (pm : PMesh) (u : ℕ → Cons) (f : ℕ → Flux)
    (e : IEdge) :
    hrEdge P (O.mesh pm) (fun c => O.cons (u c)) (O.vec f) (O.iedge e) =
      (hrEdge P pm u f e).map O.vec := by
  unfold hrEdge Ortho.iedge
  cases hr : e.right with
  | none => rfl
  | some r =>
    have hz : (O.mesh pm).zc = pm.zc := rfl
    have ha : (O.mesh pm).area = pm.area := rfl
    have hh : ∀ c, (O.cons (u c)).h = (u c).h := fun _ => rfl
    simp only [hz, ha, hh, hrState_frame, hrFlux_frame]
    by_cases hd : (u r).h < P.tinyH ∧ (u e.left).h < P.tinyH
    · rw [if_pos hd, if_pos hd]; rfl
    · rw [if_neg hd, if_neg hd, Option.map_map, Option.map_map]
      congr 1
      funext F
      have hp : ∀ w : Prim, (O.prim w).h = w.h := fun _ => rfl
      simp only [Function.comp, hp, hrCorrection_frame]
      rw [← addBoth_frame, ← addBoth_frame, smul_frame, smul_frame, smul_frame, smul_frame]

theorem boundaryEdge_frame (O : Ortho) (P : FlowParams) (pm : PMesh) (u : ℕ → Cons) (f : ℕ → Flux)
    (e : BEdge) :
    boundaryEdge P (O.mesh pm) (fun c => O.cons (u c)) (O.vec f) (O.bedge e) =
      (boundaryEdge P pm u f e).map O.vec := by
  unfold boundaryEdge Ortho.bedge
  by_cases h : pm.owned e.cell = true
  · rw [if_pos h, if_pos (show (O.mesh pm).owned e.cell = true from h)]
    simp only [boundaryStates_frame, usedFlux_frame, Option.map_map]
    congr 1
    funext F
    simp only [Function.comp]
    rw [← addOwned_frame, smul_frame]
    rfl
  · rw [if_neg h, if_neg (show ¬ (O.mesh pm).owned e.cell = true from h)]
    rfl

/-! ### Source terms -/

theorem bedTerm_frame (O : Ortho) (P : FlowParams) (inc : Bool) (a b h : ℝ) :
    bedTerm P inc (O.x a b) (O.y a b) h =
      (O.x (bedTerm P inc a b h).1 (bedTerm P inc a b h).2,
       O.y (bedTerm P inc a b h).1 (bedTerm P inc a b h).2) := by
  unfold bedTerm
  cases inc with
  | true => simp only [if_true, Ortho.x, Ortho.y, Prod.mk.injEq]; constructor <;> ring
  | false => simp [O.x_zero, O.y_zero]

theorem friction_frame (O : Ortho) (P : FlowParams) (m : FrictionMethod) (dt n : ℝ) (w : Cons)
    (Fx Fy bx bY : ℝ) :
    friction P m dt n (O.cons w) (O.x Fx Fy) (O.y Fx Fy) (O.x bx bY) (O.y bx bY) =
      (friction P m dt n w Fx Fy bx bY).map fun t => (O.x t.1 t.2, O.y t.1 t.2) := by
  have hc : (O.cons w).h = w.h := rfl
  have hcu : (O.cons w).hu = O.x w.hu w.hv := rfl
  have hcv : (O.cons w).hv = O.y w.hu w.hv := rfl
  have hz : some ((0 : ℝ), (0 : ℝ)) =
      (some ((0 : ℝ), (0 : ℝ))).map fun t => (O.x t.1 t.2, O.y t.1 t.2) := by
    simp [O.x_zero, O.y_zero]
  cases m with
  | semiImplicit =>
    unfold friction frictionSemiImplicit
    simp only [hc, hcu, hcv]
    rw [← O.x_div, ← O.y_div, O.dot]
    by_cases h : w.h ≥ P.tinyH
    · rw [if_pos h, if_pos h]
      generalize P.g * (n * n) * w.h ^ (-(1 : ℝ) / 3) *
        √(w.hu / w.h * (w.hu / w.h) + w.hv / w.h * (w.hv / w.h)) / w.h = tb
      by_cases hd : w.h = 0 ∨ 1 + dt * tb = 0
      · rw [if_pos hd, if_pos hd]; rfl
      · rw [if_neg hd, if_neg hd]
        simp only [Option.map_some, Option.some.injEq, Prod.mk.injEq, Ortho.x, Ortho.y]
        constructor <;> ring
    · rw [if_neg h, if_neg h]; exact hz
  | xq2018 =>
    unfold friction frictionXQ2018
    simp only [hc, hcu, hcv]
    by_cases h : w.h ≥ P.tinyH
    · rw [if_pos h, if_pos h]
      by_cases h0 : w.h = 0
      · rw [if_pos h0, if_pos h0]; rfl
      · rw [if_neg h0, if_neg h0]
        have ex : O.x w.hu w.hv + (O.x Fx Fy - O.x bx bY) * dt =
            O.x (w.hu + (Fx - bx) * dt) (w.hv + (Fy - bY) * dt) := by unfold Ortho.x; ring
        have ey : O.y w.hu w.hv + (O.y Fx Fy - O.y bx bY) * dt =
            O.y (w.hu + (Fx - bx) * dt) (w.hv + (Fy - bY) * dt) := by unfold Ortho.y; ring
        rw [ex, ey]
        generalize w.hu + (Fx - bx) * dt = mx
        generalize w.hv + (Fy - bY) * dt = my
        have hl : xqLambda P n w.h (O.x mx my) (O.y mx my) = xqLambda P n w.h mx my := by
          unfold xqLambda
          rw [← O.x_div, ← O.y_div, O.dot]
        have hd : xqDischarge P dt n w.h (O.x mx my) (O.y mx my) =
            (xqDischarge P dt n w.h mx my).map fun t => (O.x t.1 t.2, O.y t.1 t.2) := by
          unfold xqDischarge
          rw [hl]
          generalize xqLambda P n w.h mx my = lam
          by_cases h1 : dt * lam < P.xqThreshold
          · rw [if_pos h1, if_pos h1]; rfl
          · rw [if_neg h1, if_neg h1]
            by_cases h2 : -2 * dt * lam = 0
            · rw [if_pos h2, if_pos h2]; rfl
            · rw [if_neg h2, if_neg h2]
              simp only [Option.map_some, Option.some.injEq, Prod.mk.injEq, Ortho.x, Ortho.y]
              constructor <;> ring
        rw [hd, Option.map_map, Option.map_map]
        congr 1
        funext t
        simp only [Function.comp, O.dot, Prod.mk.injEq]
        generalize √(t.1 * t.1 + t.2 * t.2) = k
        generalize P.g * (n * n) * w.h ^ (-(7 : ℝ) / 3) = k'
        simp only [Ortho.x, Ortho.y]
        constructor <;> ring
    · rw [if_neg h, if_neg h]; exact hz

theorem sourceCell_frame (O : Ortho) (P : FlowParams) (m : FrictionMethod) (inc : Bool) (pm : PMesh)
    (dt : ℝ) (src : ℕ → Flux) (mann : ℕ → ℝ) (fd : ℕ → Flux) (u : ℕ → Cons) (f : ℕ → Flux) (c : ℕ) :
    sourceCell P m inc (O.mesh pm) dt (O.vec src) mann (O.vec fd) (fun c => O.cons (u c)) (O.vec f) c =
      (sourceCell P m inc pm dt src mann fd u f c).map O.vec := by
  unfold sourceCell
  by_cases h : pm.owned c = true
  · rw [if_pos h, if_pos (show (O.mesh pm).owned c = true from h)]
    have e1 : (O.mesh pm).dzdx c = O.x (pm.dzdx c) (pm.dzdy c) := rfl
    have e2 : (O.mesh pm).dzdy c = O.y (pm.dzdx c) (pm.dzdy c) := rfl
    have e3 : (O.mesh pm).l2o c = pm.l2o c := rfl
    have e4 : (O.cons (u c)).h = (u c).h := rfl
    have e5 : ∀ (v : ℕ → Flux) i, (O.vec v i).x = O.x (v i).x (v i).y := fun _ _ => rfl
    have e6 : ∀ (v : ℕ → Flux) i, (O.vec v i).y = O.y (v i).x (v i).y := fun _ _ => rfl
    have e7 : ∀ (v : ℕ → Flux) i, (O.vec v i).m = (v i).m := fun _ _ => rfl
    simp only [e1, e2, e3, e4, e5, e6, e7, bedTerm_frame, friction_frame, Option.map_map]
    congr 1
    funext t
    simp only [Function.comp]
    rw [← addAt_frame]
    congr 1
    unfold Ortho.flux Ortho.x Ortho.y
    ext <;> simp only <;> ring
  · rw [if_neg h, if_neg (show ¬ (O.mesh pm).owned c = true from h)]
    rfl

/-- C76 (rotation and reflection of the axes, right-hand side of a process). Computed in other axes, from
the same depths, with momenta, sources, boundary values, normals and bed slopes in those axes, the
right-hand side of a process is the same in those axes, for both friction methods and with or without
hydrostatic reconstruction; in particular it is undefined in the one if in the other. -/
theorem C76_rhs (O : Ortho) (P : FlowParams) (m : FrictionMethod) (hr : Bool) (pm : PMesh) (dt : ℝ)
    (src : ℕ → Flux) (mann : ℕ → ℝ) (u : ℕ → Cons) :
    rhs P m hr (O.mesh pm) dt (O.vec src) mann (fun c => O.cons (u c)) =
      (rhs P m hr pm dt src mann u).map O.vec := by
  have hz : (fun _ => Flux.zero : ℕ → Flux) = O.vec fun _ => Flux.zero := by
    funext i; exact (zero_frame O).symm
  have h1 : (if hr then applyInteriorHR P (O.mesh pm) (fun c => O.cons (u c)) fun _ => Flux.zero
      else applyInterior P (O.mesh pm) (fun c => O.cons (u c)) fun _ => Flux.zero) =
      (if hr then applyInteriorHR P pm u fun _ => Flux.zero
        else applyInterior P pm u fun _ => Flux.zero).map O.vec := by
    rw [hz]
    cases hr with
    | true =>
      simp only [if_true, applyInteriorHR]
      rw [← hz]
      conv_lhs => rw [hz]
      exact foldlM_frame O O.iedge _ _ (hrEdge_frame O P pm u) pm.internal _
    | false =>
      simp only [Bool.false_eq_true, if_false, applyInterior]
      rw [← hz]
      conv_lhs => rw [hz]
      exact foldlM_frame O O.iedge _ _ (interiorEdge_frame O P pm u) pm.internal _
  unfold rhs
  rw [h1]
  generalize (if hr then applyInteriorHR P pm u fun _ => Flux.zero
        else applyInterior P pm u fun _ => Flux.zero) = r1
  cases r1 with
  | none => rfl
  | some f1 =>
    simp only [Option.map_some, Option.bind_some]
    have h2 : applyBoundary P (O.mesh pm) (fun c => O.cons (u c)) (O.vec f1) =
        (applyBoundary P pm u f1).map O.vec :=
      foldlM_frame O O.bedge _ _ (boundaryEdge_frame O P pm u) pm.boundary _
    rw [h2]
    cases applyBoundary P pm u f1 with
    | none => rfl
    | some fd =>
      simp only [Option.map_some, Option.bind_some]
      have h3 := foldlM_frame O id _ _
        (sourceCell_frame O P m (!hr) pm dt src mann fd u) (List.range pm.numCells) fd
      rw [List.map_id] at h3
      exact h3

/-- The example mesh of two cells, in any axes: if the step is defined in one set of axes, it is in the
other. -/
example (O : Ortho) (dt : ℝ) (u : ℕ → Cons)
    (h : (rhs ⟨9.8, 1e-7, 0, 1e-10⟩ .semiImplicit true exWhole dt exProblem.src exProblem.mann u).isSome) :
    ∃ f, rhs ⟨9.8, 1e-7, 0, 1e-10⟩ .semiImplicit true exWhole dt exProblem.src exProblem.mann u = some f ∧
      rhs ⟨9.8, 1e-7, 0, 1e-10⟩ .semiImplicit true (O.mesh exWhole) dt (O.vec exProblem.src) exProblem.mann
        (fun c => O.cons (u c)) = some (O.vec f) := by
  obtain ⟨f, hf⟩ := Option.isSome_iff_exists.mp h
  exact ⟨f, hf, by rw [C76_rhs, hf]; rfl⟩

/-! ### CEED -/

theorem velocitiesCeed_frame (O : Ortho) (tinyH hAnuga : ℝ) (w : Cons) :
    velocitiesCeed tinyH hAnuga (O.cons w) = (velocitiesCeed tinyH hAnuga w).map O.prim := by
  unfold velocitiesCeed safeDiv
  have e1 : (O.cons w).h = w.h := rfl
  have e2 : (O.cons w).hu = O.x w.hu w.hv := rfl
  have e3 : (O.cons w).hv = O.y w.hu w.hv := rfl
  rw [e1, e2, e3]
  by_cases h : w.h > tinyH
  · simp only [if_pos h]
    by_cases h0 : w.h * w.h + hAnuga * hAnuga = 0
    · simp only [if_pos h0]; rfl
    · simp only [if_neg h0, Option.bind_some, Option.map_some, Option.some.injEq, Ortho.prim,
        Prim.mk.injEq, true_and, Ortho.x, Ortho.y]
      constructor <;> ring
  · simp only [if_neg h, Option.bind_some, Option.map_some, Ortho.prim, O.x_zero, O.y_zero]

theorem roeFluxCeed_frame (O : Ortho) (g tinyH hAnuga : ℝ) (a b : Cons) (sn cn dhv : ℝ) :
    roeFluxCeed g tinyH hAnuga (O.cons a) (O.cons b) (O.y cn sn) (O.x cn sn) dhv =
      (roeFluxCeed g tinyH hAnuga a b sn cn dhv).map fun F => (O.flux F.1, F.2) := by
  unfold roeFluxCeed
  rw [velocitiesCeed_frame, velocitiesCeed_frame]
  cases velocitiesCeed tinyH hAnuga a with
  | none => rfl
  | some L =>
    cases velocitiesCeed tinyH hAnuga b with
    | none => rfl
    | some R =>
      simp only [Option.map_some, Option.bind_some]
      by_cases h : RoeDefined L.h R.h
      · rw [if_pos h, if_pos (show RoeDefined (O.prim L).h (O.prim R).h from h), sideFlux_frame,
          sideFlux_frame, roeEigCeed_frame, roeCombine_frame]
        simp only [Option.map_some, Option.some.injEq, Prod.mk.injEq]
        refine ⟨?_, rfl⟩
        unfold Ortho.flux Ortho.x Ortho.y
        ext <;> simp only <;> ring
      · rw [if_neg h, if_neg (show ¬ RoeDefined (O.prim L).h (O.prim R).h from h)]
        rfl

theorem edgeFluxCeed_frame (O : Ortho) (g tinyH hAnuga : ℝ) (a b : Cons) (sn cn dhv : ℝ) :
    edgeFluxCeed g tinyH hAnuga (O.cons a) (O.cons b) (O.y cn sn) (O.x cn sn) dhv =
      (edgeFluxCeed g tinyH hAnuga a b sn cn dhv).map fun F => (O.flux F.1, F.2) := by
  unfold edgeFluxCeed
  by_cases h : a.h > tinyH ∨ b.h > tinyH
  · rw [if_pos h, if_pos (show (O.cons a).h > tinyH ∨ (O.cons b).h > tinyH from h), roeFluxCeed_frame]
  · rw [if_neg h, if_neg (show ¬ ((O.cons a).h > tinyH ∨ (O.cons b).h > tinyH) from h)]
    simp [Ortho.flux, O.x_zero, O.y_zero]

theorem boundaryFluxCeed_frame (O : Ortho) (P : FlowParams) (bc : BCond) (w : Cons) (sn cn : ℝ) :
    boundaryFluxCeed P (O.bc bc) (O.cons w) (O.y cn sn) (O.x cn sn) =
      (boundaryFluxCeed P bc w sn cn).map fun F => (O.flux F.1, F.2) := by
  cases bc with
  | dirichlet qb => exact edgeFluxCeed_frame O P.g P.tinyH P.hAnuga w qb sn cn 0
  | reflecting =>
    simp only [Ortho.bc, boundaryFluxCeed, reflectFluxCeed]
    by_cases h : w.h > P.tinyH
    · rw [if_pos h, if_pos (show (O.cons w).h > P.tinyH from h), ← roeFluxCeed_frame]
      have hr := reflectRight_frame O ⟨w.h, w.hu, w.hv⟩ sn cn
      simp only [reflectRight, Ortho.prim, Prim.mk.injEq, true_and] at hr
      congr 1
      simp only [Ortho.cons, Cons.mk.injEq, true_and]
      exact hr
    · rw [if_neg h, if_neg (show ¬ (O.cons w).h > P.tinyH from h)]
      simp [Ortho.flux, O.x_zero, O.y_zero]
  | outflow =>
    simp only [Ortho.bc, boundaryFluxCeed, outflowFluxCeed]
    have hq : (O.cons w).hu * O.x cn sn + (O.cons w).hv * O.y cn sn = w.hu * cn + w.hv * sn :=
      O.dot w.hu w.hv cn sn
    have hh : (O.cons w).h = w.h := rfl
    rw [hq, hh]
    generalize w.hu * cn + w.hv * sn = t
    generalize (|t| * |t| / P.g) ^ (1 / 3 : ℝ) = hR
    by_cases h : (w.h > P.tinyH ∨ hR > P.tinyH) ∧ t ≥ 0
    · rw [if_pos h, if_pos h, ← roeFluxCeed_frame]
      congr 1
      simp only [Ortho.cons, Cons.mk.injEq, true_and, Ortho.x, Ortho.y]
      constructor <;> ring
    · rw [if_neg h, if_neg h]
      simp [Ortho.flux, O.x_zero, O.y_zero]

theorem hrStateCeed_frame (O : Ortho) (P : FlowParams) (z zmax : ℝ) (w : Cons) :
    hrStateCeed P z zmax (O.cons w) = (hrStateCeed P z zmax w).map O.cons := by
  unfold hrStateCeed
  rw [velocitiesCeed_frame, Option.map_map, Option.map_map]
  congr 1
  funext s
  have hh : (O.cons w).h = w.h := rfl
  simp only [Function.comp, hh]
  generalize max 0 (w.h + z - zmax) = k
  simp only [Ortho.prim, Ortho.cons, Cons.mk.injEq, true_and, Ortho.x, Ortho.y]
  constructor <;> ring

theorem hrPairCeed_frame (O : Ortho) (P : FlowParams) (zL zR : ℝ) (a b : Cons) (sn cn : ℝ) :
    hrPairCeed P zL zR (O.cons a) (O.cons b) (O.y cn sn) (O.x cn sn) =
      (hrPairCeed P zL zR a b sn cn).map fun F => (O.flux F.1, O.flux F.2) := by
  unfold hrPairCeed
  rw [hrStateCeed_frame, hrStateCeed_frame]
  by_cases h : a.h > P.tinyH ∨ b.h > P.tinyH
  · rw [if_pos h, if_pos (show (O.cons a).h > P.tinyH ∨ (O.cons b).h > P.tinyH from h)]
    cases hrStateCeed P zL (max zL zR) a with
    | none => rfl
    | some L =>
      cases hrStateCeed P zR (max zL zR) b with
      | none => rfl
      | some R =>
        simp only [Option.map_some, Option.bind_some]
        have hF : hrFluxCeed P (O.cons L) (O.cons R) (O.y cn sn) (O.x cn sn) =
            (hrFluxCeed P L R sn cn).map O.flux := by
          unfold hrFluxCeed
          by_cases h' : L.h > P.tinyH ∨ R.h > P.tinyH
          · rw [if_pos h', if_pos (show (O.cons L).h > P.tinyH ∨ (O.cons R).h > P.tinyH from h'),
              roeFluxCeed_frame, Option.map_map, Option.map_map]
            rfl
          · rw [if_neg h', if_neg (show ¬ ((O.cons L).h > P.tinyH ∨ (O.cons R).h > P.tinyH) from h')]
            simp [Ortho.flux, O.x_zero, O.y_zero]
        rw [hF, Option.map_map, Option.map_map]
        congr 1
        funext F
        simp only [Function.comp, add_frame, ← hrCorrection_frame]
        rfl
  · rw [if_neg h, if_neg (show ¬ ((O.cons a).h > P.tinyH ∨ (O.cons b).h > P.tinyH) from h)]
    simp [Ortho.flux, O.x_zero, O.y_zero]

theorem frictionCeed_frame (O : Ortho) (P : FlowParams) (m : FrictionMethod) (dt n : ℝ) (w : Cons)
    (Fx Fy bx bY : ℝ) :
    frictionCeed P m dt n (O.cons w) (O.x Fx Fy) (O.y Fx Fy) (O.x bx bY) (O.y bx bY) =
      (frictionCeed P m dt n w Fx Fy bx bY).map fun t => (O.x t.1 t.2, O.y t.1 t.2) := by
  have hc : (O.cons w).h = w.h := rfl
  have hcu : (O.cons w).hu = O.x w.hu w.hv := rfl
  have hcv : (O.cons w).hv = O.y w.hu w.hv := rfl
  unfold frictionCeed
  by_cases h : w.h > P.tinyH
  · rw [if_pos h, if_pos (show (O.cons w).h > P.tinyH from h)]
    cases m with
    | semiImplicit =>
      simp only [semiImplicitCeed, velocitiesCeed_frame]
      cases velocitiesCeed P.tinyH P.hAnuga w with
      | none => rfl
      | some s =>
        simp only [Option.map_some, Option.bind_some, hc, hcu, hcv]
        have hs : (O.prim s).u * (O.prim s).u + (O.prim s).v * (O.prim s).v = s.u * s.u + s.v * s.v :=
          O.dot s.u s.v s.u s.v
        rw [hs]
        generalize P.g * (n * n) * w.h ^ (-(1 : ℝ) / 3) * √(s.u * s.u + s.v * s.v) / w.h = tb
        by_cases hd : w.h = 0 ∨ 1 + dt * tb = 0
        · rw [if_pos hd, if_pos hd]; rfl
        · rw [if_neg hd, if_neg hd]
          simp only [Option.map_some, Option.some.injEq, Prod.mk.injEq, Ortho.x, Ortho.y]
          constructor <;> ring
    | xq2018 =>
      simp only [xqCeed, hc, hcu, hcv]
      by_cases h0 : w.h = 0
      · rw [if_pos h0, if_pos h0]; rfl
      · rw [if_neg h0, if_neg h0]
        have ex : O.x w.hu w.hv + (O.x Fx Fy - O.x bx bY) * dt =
            O.x (w.hu + (Fx - bx) * dt) (w.hv + (Fy - bY) * dt) := by unfold Ortho.x; ring
        have ey : O.y w.hu w.hv + (O.y Fx Fy - O.y bx bY) * dt =
            O.y (w.hu + (Fx - bx) * dt) (w.hv + (Fy - bY) * dt) := by unfold Ortho.y; ring
        rw [ex, ey]
        generalize w.hu + (Fx - bx) * dt = mx
        generalize w.hv + (Fy - bY) * dt = my
        have hl : xqLambdaCeed P n w.h (O.x mx my) (O.y mx my) = xqLambdaCeed P n w.h mx my := by
          unfold xqLambdaCeed
          rw [← O.x_div, ← O.y_div, O.dot]
        have hd : xqDischargeCeed P dt n w.h (O.x mx my) (O.y mx my) =
            (xqDischargeCeed P dt n w.h mx my).map fun t => (O.x t.1 t.2, O.y t.1 t.2) := by
          unfold xqDischargeCeed
          rw [hl]
          generalize xqLambdaCeed P n w.h mx my = lam
          by_cases h1 : dt * lam < P.xqThreshold
          · rw [if_pos h1, if_pos h1]; rfl
          · rw [if_neg h1, if_neg h1]
            by_cases h2 : -2 * dt * lam = 0
            · rw [if_pos h2, if_pos h2]; rfl
            · rw [if_neg h2, if_neg h2]
              simp only [Option.map_some, Option.some.injEq, Prod.mk.injEq, Ortho.x, Ortho.y]
              constructor <;> ring
        rw [hd, Option.map_map, Option.map_map]
        congr 1
        funext t
        simp only [Function.comp, O.dot, Prod.mk.injEq]
        generalize (t.1 * t.1 + t.2 * t.2) ^ (0.5 : ℝ) = k
        generalize P.g * (n * n) * w.h ^ (-(7 : ℝ) / 3) = k'
        simp only [Ortho.x, Ortho.y]
        constructor <;> ring
  · rw [if_neg h, if_neg (show ¬ (O.cons w).h > P.tinyH from h)]
    simp [O.x_zero, O.y_zero]

theorem cellRhsCeed_frame (O : Ortho) (P : FlowParams) (m : FrictionMethod) (inc : Bool)
    (a b dt n : ℝ) (src F : Flux) (w : Cons) :
    cellRhsCeed P m inc (O.x a b) (O.y a b) dt n (O.flux src) (O.flux F) (O.cons w) =
      (cellRhsCeed P m inc a b dt n src F w).map O.flux := by
  have hh : (O.cons w).h = w.h := rfl
  have hx : ∀ G : Flux, (O.flux G).x = O.x G.x G.y := fun _ => rfl
  have hy : ∀ G : Flux, (O.flux G).y = O.y G.x G.y := fun _ => rfl
  have hm : ∀ G : Flux, (O.flux G).m = G.m := fun _ => rfl
  unfold cellRhsCeed
  simp only [hh, hx, hy, hm, bedTerm_frame, frictionCeed_frame, Option.map_map]
  congr 1
  funext t
  simp only [Function.comp]
  unfold Ortho.flux Ortho.x Ortho.y
  ext <;> simp only <;> ring

/-- C76 (rotation and reflection of the axes, CEED). The same for the right-hand side of the CEED backend. -/
theorem C76_ceed (O : Ortho) (P : FlowParams) (m : FrictionMethod) (hr : Bool) (pm : PMesh) (dt : ℝ)
    (src : ℕ → Flux) (mann : ℕ → ℝ) (u : ℕ → Cons) :
    ceedRhs P m hr (O.mesh pm) dt (O.vec src) mann (fun c => O.cons (u c)) =
      (ceedRhs P m hr pm dt src mann u).map O.vec := by
  have hz : (fun _ => Flux.zero : ℕ → Flux) = O.vec fun _ => Flux.zero := by
    funext i; exact (zero_frame O).symm
  have hedge : ∀ (f : ℕ → Flux) (e : IEdge),
      (if hr then ceedEdgeHR P (O.mesh pm) (fun c => O.cons (u c))
        else ceedEdge P (O.mesh pm) fun c => O.cons (u c)) (O.vec f) (O.iedge e) =
      ((if hr then ceedEdgeHR P pm u else ceedEdge P pm u) f e).map O.vec := by
    intro f e
    cases hr with
    | true =>
      simp only [if_true, ceedEdgeHR, Ortho.iedge]
      cases e.right with
      | none => rfl
      | some r =>
        have hzc : (O.mesh pm).zc = pm.zc := rfl
        simp only [hzc, hrPairCeed_frame, Option.map_map]
        congr 1
        funext F
        simp only [Function.comp]
        rw [← addAt_frame, ← addAt_frame, smul_frame, smul_frame]
        rfl
    | false =>
      simp only [Bool.false_eq_true, if_false, ceedEdge, Ortho.iedge]
      cases e.right with
      | none => rfl
      | some r =>
        simp only [edgeFluxCeed_frame, Option.map_map]
        congr 1
        funext F
        simp only [Function.comp]
        rw [← addAt_frame, ← addAt_frame, smul_frame, smul_frame]
        rfl
  have hbnd : ∀ (f : ℕ → Flux) (e : BEdge),
      ceedBEdge P (O.mesh pm) (fun c => O.cons (u c)) (O.vec f) (O.bedge e) =
      (ceedBEdge P pm u f e).map O.vec := by
    intro f e
    simp only [ceedBEdge, Ortho.bedge, boundaryFluxCeed_frame, Option.map_map]
    congr 1
    funext F
    simp only [Function.comp]
    rw [← addAt_frame, smul_frame]
    rfl
  have hdiv : ceedDivergence P hr (O.mesh pm) (fun c => O.cons (u c)) =
      (ceedDivergence P hr pm u).map O.vec := by
    unfold ceedDivergence
    have h1 := foldlM_frame O O.iedge _ _ hedge pm.internal fun _ => Flux.zero
    rw [← hz] at h1
    have e1 : (O.mesh pm).internal = pm.internal.map O.iedge := rfl
    have e2 : (O.mesh pm).boundary = pm.boundary.map O.bedge := rfl
    rw [e1, e2, h1]
    cases pm.internal.foldlM (if hr then ceedEdgeHR P pm u else ceedEdge P pm u) fun _ => Flux.zero with
    | none => rfl
    | some f => exact foldlM_frame O O.bedge _ _ hbnd pm.boundary f
  unfold ceedRhs
  rw [hdiv]
  cases ceedDivergence P hr pm u with
  | none => rfl
  | some fd =>
    simp only [Option.map_some, Option.bind_some]
    have hsrc : ∀ (f : ℕ → Flux) (c : ℕ),
        ceedSourceCell P m (!hr) (O.mesh pm) dt (O.vec src) mann (O.vec fd) (fun c => O.cons (u c))
          (O.vec f) (id c) = (ceedSourceCell P m (!hr) pm dt src mann fd u f c).map O.vec := by
      intro f c
      unfold ceedSourceCell
      by_cases h : pm.owned c = true
      · rw [if_pos h, if_pos (show (O.mesh pm).owned (id c) = true from h)]
        have e1 : (O.mesh pm).dzdx (id c) = O.x (pm.dzdx c) (pm.dzdy c) := rfl
        have e2 : (O.mesh pm).dzdy (id c) = O.y (pm.dzdx c) (pm.dzdy c) := rfl
        have e3 : (O.mesh pm).l2o (id c) = pm.l2o c := rfl
        have e4 : ∀ v : ℕ → Flux, ∀ i, O.vec v i = O.flux (v i) := fun _ _ => rfl
        rw [e1, e2, e3, e4, e4, id, cellRhsCeed_frame, Option.map_map, Option.map_map]
        congr 1
        funext F
        simp only [Function.comp]
        funext j
        unfold Ortho.vec
        by_cases hj : j = pm.l2o c
        · subst hj; simp
        · simp [Function.update_of_ne hj]
      · rw [if_neg h, if_neg (show ¬ (O.mesh pm).owned (id c) = true from h)]
        rfl
    have h3 := foldlM_frame O id _ _ hsrc (List.range pm.numCells) fd
    rw [List.map_id] at h3
    exact h3

example (O : Ortho) (dt : ℝ) (u : ℕ → Cons)
    (h : (ceedRhs ⟨9.8, 1e-7, 0, 1e-10⟩ .xq2018 false exWhole dt exProblem.src exProblem.mann u).isSome) :
    (ceedRhs ⟨9.8, 1e-7, 0, 1e-10⟩ .xq2018 false (O.mesh exWhole) dt (O.vec exProblem.src) exProblem.mann
        (fun c => O.cons (u c))).isSome := by
  rw [C76_ceed, Option.isSome_map]
  exact h

/-! ### The zero of the elevations -/

/-- the same mesh with elevations measured from another level -/
def raiseBed (k : ℝ) (m : PMesh) : PMesh := { m with zc := fun c => m.zc c + k }

theorem hr_raise (h z z' k : ℝ) : h + (z + k) - max (z + k) (z' + k) = h + z - max z z' := by
  rw [max_add_add_right]; ring

/-- C76 (elevation). Measuring the bed elevations from another level does not change the right-hand side, in
either backend. -/
theorem C76_datum (k : ℝ) (P : FlowParams) (m : FrictionMethod) (hr : Bool) (pm : PMesh) (dt : ℝ)
    (src : ℕ → Flux) (mann : ℕ → ℝ) (u : ℕ → Cons) :
    rhs P m hr (raiseBed k pm) dt src mann u = rhs P m hr pm dt src mann u ∧
      ceedRhs P m hr (raiseBed k pm) dt src mann u = ceedRhs P m hr pm dt src mann u := by
  have hL : ∀ (z z' : ℝ) (w : Cons), hrState P (z + k) (max (z + k) (z' + k)) w =
      hrState P z (max z z') w := by
    intro z z' w; unfold hrState; rw [hr_raise]
  have hR : ∀ (z z' : ℝ) (w : Cons), hrState P (z' + k) (max (z + k) (z' + k)) w =
      hrState P z' (max z z') w := by
    intro z z' w; rw [max_comm, hL, max_comm]
  have cL : ∀ (z z' : ℝ) (w : Cons), hrStateCeed P (z + k) (max (z + k) (z' + k)) w =
      hrStateCeed P z (max z z') w := by
    intro z z' w; unfold hrStateCeed; rw [hr_raise]
  have cR : ∀ (z z' : ℝ) (w : Cons), hrStateCeed P (z' + k) (max (z + k) (z' + k)) w =
      hrStateCeed P z' (max z z') w := by
    intro z z' w; rw [max_comm, cL, max_comm]
  have e1 : hrEdge P (raiseBed k pm) u = hrEdge P pm u := by
    funext f e
    unfold hrEdge
    cases e.right with
    | none => rfl
    | some r => simp only [raiseBed, hL, hR]; rfl
  have e2 : ceedEdgeHR P (raiseBed k pm) u = ceedEdgeHR P pm u := by
    funext f e
    unfold ceedEdgeHR
    cases e.right with
    | none => rfl
    | some r => simp only [raiseBed, hrPairCeed, cL, cR]
  constructor
  · unfold rhs applyInteriorHR
    rw [e1]
    rfl
  · unfold ceedRhs ceedDivergence
    rw [e2]
    rfl

example (u : ℕ → Cons) : rhs ⟨9.8, 1e-7, 0, 1e-10⟩ .semiImplicit true (raiseBed 100 exWhole) 1
    exProblem.src exProblem.mann u =
    rhs ⟨9.8, 1e-7, 0, 1e-10⟩ .semiImplicit true exWhole 1 exProblem.src exProblem.mann u :=
  (C76_datum 100 _ _ _ exWhole _ _ _ u).1

end RDy
