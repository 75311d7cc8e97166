import Verif.Model.Operator
import Mathlib.Algebra.BigOperators.Ring.Finset
import Mathlib.Algebra.BigOperators.Group.Finset.Piecewise
import Mathlib.Tactic.Linarith
import Mathlib.Tactic.FieldSimp
import Mathlib.Tactic.Ring

/-! Sums over the owned cells of a process, and how the operators change them. -/

namespace RDy

open Finset

/-- a component of the right-hand side, or any linear combination of them -/
structure LinF (k : Flux → ℝ) : Prop where
  add : ∀ a b, k (a.add b) = k a + k b
  smul : ∀ s a, k (a.smul s) = k a * s
  zero : k Flux.zero = 0

theorem linF_m : LinF Flux.m := ⟨fun _ _ => rfl, fun _ _ => rfl, rfl⟩
theorem linF_x : LinF Flux.x := ⟨fun _ _ => rfl, fun _ _ => rfl, rfl⟩
theorem linF_y : LinF Flux.y := ⟨fun _ _ => rfl, fun _ _ => rfl, rfl⟩

/-- area-weighted sum over the owned cells of a process -/
noncomputable def ownedTotal (pm : PMesh) (k : Flux → ℝ) (f : ℕ → Flux) : ℝ :=
  ∑ c ∈ range pm.numCells, if pm.owned c then pm.area c * k (f (pm.l2o c)) else 0

/-- different owned cells have different owned numbers -/
def OwnedInj (pm : PMesh) : Prop :=
  ∀ c < pm.numCells, ∀ c' < pm.numCells, pm.owned c = true → pm.owned c' = true →
    pm.l2o c = pm.l2o c' → c = c'

theorem ownedTotal_addOwned {pm : PMesh} {k : Flux → ℝ} (hk : LinF k) (hinj : OwnedInj pm)
    (f : ℕ → Flux) {c : ℕ} (hc : c < pm.numCells) (F : Flux) :
    ownedTotal pm k (addOwned pm f c F) =
      ownedTotal pm k f + if pm.owned c then pm.area c * k F else 0 := by
  unfold addOwned
  by_cases ho : pm.owned c = true
  · simp only [ho, if_true]
    unfold ownedTotal
    have h : ∀ c' ∈ range pm.numCells,
        (if pm.owned c' then pm.area c' * k (addAt f (pm.l2o c) F (pm.l2o c')) else 0) =
        (if pm.owned c' then pm.area c' * k (f (pm.l2o c')) else 0) +
          if c' = c then pm.area c * k F else 0 := by
      intro c' hc'
      rw [mem_range] at hc'
      by_cases ho' : pm.owned c' = true
      · simp only [ho', if_true]
        by_cases e : c' = c
        · subst e
          simp only [addAt, if_true, hk.add]
          ring
        · have hne : pm.l2o c' ≠ pm.l2o c := fun h => e (hinj c' hc' c hc ho' ho h)
          simp only [addAt, hne, e, if_false, add_zero]
      · have e : c' ≠ c := fun h => ho' (h ▸ ho)
        simp [ho', e]
    rw [sum_congr rfl h, sum_add_distrib]
    congr 1
    rw [sum_ite_eq' (range pm.numCells) c]
    simp [hc]
  · simp [ho]

theorem ownedTotal_addBoth {pm : PMesh} {k : Flux → ℝ} (hk : LinF k) (hinj : OwnedInj pm)
    (f : ℕ → Flux) {l r : ℕ} (hl : l < pm.numCells) (hr : r < pm.numCells) (FL FR : Flux) :
    ownedTotal pm k (addBoth pm f l r FL FR) =
      ownedTotal pm k f + (if pm.owned l then pm.area l * k FL else 0) +
        if pm.owned r then pm.area r * k FR else 0 := by
  unfold addBoth
  rw [ownedTotal_addOwned hk hinj _ hr, ownedTotal_addOwned hk hinj _ hl]

theorem ownedTotal_zero {pm : PMesh} {k : Flux → ℝ} (hk : LinF k) :
    ownedTotal pm k (fun _ => Flux.zero) = 0 := by
  unfold ownedTotal
  apply sum_eq_zero
  intro c _
  rw [hk.zero]
  simp

/-- If every step of a fold adds a fixed amount to a quantity, the fold adds the sum. -/
theorem foldlM_sum {α σ : Type} (step : σ → α → Option σ) (T : σ → ℝ) (d : α → ℝ) :
    ∀ (l : List α) (f f' : σ),
      (∀ f e f', e ∈ l → step f e = some f' → T f' = T f + d e) →
      l.foldlM step f = some f' → T f' = T f + (l.map d).sum
  | [], f, f', _, h => by
      simp at h
      subst h
      simp
  | a :: l, f, f', H, h => by
      rw [List.foldlM_cons] at h
      cases hs : step f a with
      | none => rw [hs] at h; simp at h
      | some f1 =>
        rw [hs] at h
        have h' : l.foldlM step f1 = some f' := h
        have := foldlM_sum step T d l f1 f' (fun f e f'' he => H f e f'' (List.mem_cons_of_mem _ he)) h'
        rw [this, H f a f1 (by simp) hs]
        simp only [List.map_cons, List.sum_cons]
        ring

/-- the flux of an edge that is added to its left cell and subtracted from its right cell -/
noncomputable def edgeFlux (P : FlowParams) (qL qR : Cons) (sn cn : ℝ) : Flux :=
  (usedFlux P.g P.tinyH (velocities P.tinyH P.hAnuga qL) (velocities P.tinyH P.hAnuga qR) sn cn).getD
    Flux.zero

/-- amount by which an internal edge changes the area-weighted sum over owned cells -/
noncomputable def edgeChange (P : FlowParams) (pm : PMesh) (k : Flux → ℝ) (u : ℕ → Cons) (e : IEdge) :
    ℝ :=
  match e.right with
  | none => 0
  | some r =>
    (if pm.owned e.left then -e.len * k (edgeFlux P (u e.left) (u r) e.sn e.cn) else 0) +
      if pm.owned r then e.len * k (edgeFlux P (u e.left) (u r) e.sn e.cn) else 0

/-- the cells of all internal and boundary edges are local cells with non-zero areas -/
structure EdgesValid (pm : PMesh) : Prop where
  left : ∀ e ∈ pm.internal, e.left < pm.numCells
  right : ∀ e ∈ pm.internal, ∀ r, e.right = some r → r < pm.numCells
  cell : ∀ e ∈ pm.boundary, e.cell < pm.numCells
  area : ∀ c < pm.numCells, pm.area c ≠ 0

theorem interiorEdge_total {P : FlowParams} {pm : PMesh} {k : Flux → ℝ} (hk : LinF k)
    (hinj : OwnedInj pm) (hv : EdgesValid pm) (u : ℕ → Cons) (f f' : ℕ → Flux) (e : IEdge)
    (he : e ∈ pm.internal) (h : interiorEdge P pm u f e = some f') :
    ownedTotal pm k f' = ownedTotal pm k f + edgeChange P pm k u e := by
  unfold interiorEdge at h
  unfold edgeChange
  cases hr : e.right with
  | none =>
    rw [hr] at h
    simp only [Option.some.injEq] at h
    subst h
    simp
  | some r =>
    rw [hr] at h
    simp only [Option.map_eq_some_iff] at h
    obtain ⟨F, hF, hf⟩ := h
    have hl := hv.left e he
    have hrr := hv.right e he r hr
    have hal := hv.area _ hl
    have har := hv.area _ hrr
    rw [← hf, ownedTotal_addBoth hk hinj _ hl hrr, hk.smul, hk.smul]
    have hE : edgeFlux P (u e.left) (u r) e.sn e.cn = F := by
      unfold edgeFlux
      rw [hF]
      rfl
    simp only [hE]
    rw [add_assoc]
    congr 2
    · split
      · field_simp
      · rfl
    · split
      · field_simp
      · rfl

theorem applyInterior_total {P : FlowParams} {pm : PMesh} {k : Flux → ℝ} (hk : LinF k)
    (hinj : OwnedInj pm) (hv : EdgesValid pm) (u : ℕ → Cons) (f f' : ℕ → Flux)
    (h : applyInterior P pm u f = some f') :
    ownedTotal pm k f' = ownedTotal pm k f + (pm.internal.map (edgeChange P pm k u)).sum :=
  foldlM_sum (interiorEdge P pm u) (ownedTotal pm k) _ pm.internal f f'
    (fun f e f' he hs => interiorEdge_total hk hinj hv u f f' e he hs) h

/-- flux through a boundary edge, out of the domain -/
noncomputable def bndFlux (P : FlowParams) (u : ℕ → Cons) (e : BEdge) : Flux :=
  (usedFlux P.g P.tinyH (boundaryStates P.g P.tinyH P.hAnuga e.bc (u e.cell) e.sn e.cn).1
      (boundaryStates P.g P.tinyH P.hAnuga e.bc (u e.cell) e.sn e.cn).2 e.sn e.cn).getD Flux.zero

/-- amount by which a boundary edge changes the area-weighted sum over owned cells -/
noncomputable def bndChange (P : FlowParams) (pm : PMesh) (k : Flux → ℝ) (u : ℕ → Cons) (e : BEdge) :
    ℝ :=
  if pm.owned e.cell then -e.len * k (bndFlux P u e) else 0

theorem boundaryEdge_total {P : FlowParams} {pm : PMesh} {k : Flux → ℝ} (hk : LinF k)
    (hinj : OwnedInj pm) (hv : EdgesValid pm) (u : ℕ → Cons) (f f' : ℕ → Flux) (e : BEdge)
    (he : e ∈ pm.boundary) (h : boundaryEdge P pm u f e = some f') :
    ownedTotal pm k f' = ownedTotal pm k f + bndChange P pm k u e := by
  unfold boundaryEdge at h
  unfold bndChange
  by_cases ho : pm.owned e.cell = true
  · rw [if_pos ho] at h
    simp only [Option.map_eq_some_iff] at h
    obtain ⟨F, hF, hf⟩ := h
    have hl := hv.cell e he
    have hal := hv.area _ hl
    rw [← hf, ownedTotal_addOwned hk hinj _ hl, hk.smul]
    have hE : bndFlux P u e = F := by
      unfold bndFlux
      rw [hF]
      rfl
    simp only [hE, ho, if_true]
    congr 1
    field_simp
  · rw [if_neg ho] at h
    simp only [Option.some.injEq] at h
    subst h
    simp [ho]

theorem applyBoundary_total {P : FlowParams} {pm : PMesh} {k : Flux → ℝ} (hk : LinF k)
    (hinj : OwnedInj pm) (hv : EdgesValid pm) (u : ℕ → Cons) (f f' : ℕ → Flux)
    (h : applyBoundary P pm u f = some f') :
    ownedTotal pm k f' = ownedTotal pm k f + (pm.boundary.map (bndChange P pm k u)).sum :=
  foldlM_sum (boundaryEdge P pm u) (ownedTotal pm k) _ pm.boundary f f'
    (fun f e f' he hs => boundaryEdge_total hk hinj hv u f f' e he hs) h

theorem addAt_eq_addOwned {pm : PMesh} {c : ℕ} (ho : pm.owned c = true) (f : ℕ → Flux) (F : Flux) :
    addAt f (pm.l2o c) F = addOwned pm f c F := by
  unfold addOwned
  rw [if_pos ho]

theorem sourceCell_mass {P : FlowParams} {m : FrictionMethod} {sl : Bool} {pm : PMesh}
    (hinj : OwnedInj pm) {dt : ℝ} {src : ℕ → Flux} {mann : ℕ → ℝ} {fd : ℕ → Flux} (u : ℕ → Cons)
    (f f' : ℕ → Flux) (c : ℕ) (hc : c < pm.numCells)
    (h : sourceCell P m sl pm dt src mann fd u f c = some f') :
    ownedTotal pm Flux.m f' = ownedTotal pm Flux.m f +
      if pm.owned c then pm.area c * (src (pm.l2o c)).m else 0 := by
  unfold sourceCell at h
  by_cases ho : pm.owned c = true
  · rw [if_pos ho] at h
    simp only [Option.map_eq_some_iff] at h
    obtain ⟨t, -, hf⟩ := h
    rw [← hf, addAt_eq_addOwned ho, ownedTotal_addOwned linF_m hinj _ hc]
  · rw [if_neg ho] at h
    simp only [Option.some.injEq] at h
    subst h
    simp [ho]

theorem applySource_mass {P : FlowParams} {m : FrictionMethod} {sl : Bool} {pm : PMesh}
    (hinj : OwnedInj pm) {dt : ℝ} {src : ℕ → Flux} {mann : ℕ → ℝ} {fd : ℕ → Flux} (u : ℕ → Cons)
    (f f' : ℕ → Flux) (h : applySource P m sl pm dt src mann fd u f = some f') :
    ownedTotal pm Flux.m f' = ownedTotal pm Flux.m f + ownedTotal pm Flux.m src := by
  have := foldlM_sum (sourceCell P m sl pm dt src mann fd u) (ownedTotal pm Flux.m)
    (fun c => if pm.owned c then pm.area c * (src (pm.l2o c)).m else 0) (List.range pm.numCells) f f'
    (fun f c f' hc hs => sourceCell_mass hinj u f f' c (List.mem_range.mp hc) hs) h
  rw [this]
  congr 1

/-- the flux of an internal edge with hydrostatic reconstruction -/
noncomputable def edgeFluxHR (P : FlowParams) (zL zR : ℝ) (qL qR : Cons) (sn cn : ℝ) : Flux :=
  if qR.h < P.tinyH ∧ qL.h < P.tinyH then Flux.zero
  else (hrFlux P (hrState P zL (max zL zR) qL) (hrState P zR (max zL zR) qR) sn cn).getD Flux.zero

/-- amount by which an internal edge changes the total volume with hydrostatic reconstruction -/
noncomputable def edgeChangeHR (P : FlowParams) (pm : PMesh) (u : ℕ → Cons) (e : IEdge) : ℝ :=
  match e.right with
  | none => 0
  | some r =>
    (if pm.owned e.left then
      -e.len * (edgeFluxHR P (pm.zc e.left) (pm.zc r) (u e.left) (u r) e.sn e.cn).m else 0) +
      if pm.owned r then
        e.len * (edgeFluxHR P (pm.zc e.left) (pm.zc r) (u e.left) (u r) e.sn e.cn).m else 0

theorem hrEdge_mass {P : FlowParams} {pm : PMesh} (hinj : OwnedInj pm) (hv : EdgesValid pm)
    (u : ℕ → Cons) (f f' : ℕ → Flux) (e : IEdge) (he : e ∈ pm.internal)
    (h : hrEdge P pm u f e = some f') :
    ownedTotal pm Flux.m f' = ownedTotal pm Flux.m f + edgeChangeHR P pm u e := by
  unfold hrEdge at h
  unfold edgeChangeHR edgeFluxHR
  cases hr : e.right with
  | none =>
    rw [hr] at h
    simp only [Option.some.injEq] at h
    subst h
    simp
  | some r =>
    rw [hr] at h
    simp only at h ⊢
    by_cases hd : (u r).h < P.tinyH ∧ (u e.left).h < P.tinyH
    · rw [if_pos hd] at h
      simp only [Option.some.injEq] at h
      subst h
      simp [hd, Flux.zero]
    · rw [if_neg hd] at h
      simp only [if_neg hd]
      simp only [Option.map_eq_some_iff] at h
      obtain ⟨F, hF, hf⟩ := h
      have hl := hv.left e he
      have hrr := hv.right e he r hr
      have hal := hv.area _ hl
      have har := hv.area _ hrr
      rw [← hf, ownedTotal_addBoth linF_m hinj _ hl hrr, ownedTotal_addBoth linF_m hinj _ hl hrr]
      simp only [hF, Option.getD_some, hrCorrection, Flux.smul, zero_mul, mul_zero, ite_self, add_zero]
      rw [add_assoc]
      congr 2
      · split
        · field_simp
        · rfl
      · split
        · field_simp
        · rfl

theorem applyInteriorHR_mass {P : FlowParams} {pm : PMesh} (hinj : OwnedInj pm) (hv : EdgesValid pm)
    (u : ℕ → Cons) (f f' : ℕ → Flux) (h : applyInteriorHR P pm u f = some f') :
    ownedTotal pm Flux.m f' =
      ownedTotal pm Flux.m f + (pm.internal.map (edgeChangeHR P pm u)).sum :=
  foldlM_sum (hrEdge P pm u) (ownedTotal pm Flux.m) _ pm.internal f f'
    (fun f e f' he hs => hrEdge_mass hinj hv u f f' e he hs) h

end RDy
