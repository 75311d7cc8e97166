import Verif.Model.TracerHR
import Verif.Props.TracerMax

/-!
C84: tracers are passive: the flow of a run with tracers is that of the run without.
-/

namespace RDy

open Finset

/-! ### Specification -/

/-- the flow components of a right-hand side with tracers -/
def flowOf (f : ℕ → ℕ → ℝ) (i : ℕ) : Flux := ⟨f i 0, f i 1, f i 2⟩

/-- the flow components of a flux -/
def toFlux (F : ℕ → ℝ) : Flux := ⟨F 0, F 1, F 2⟩

/-- the flow condition of a boundary of a run with tracers -/
def TBCond.flow : TBCond → BCond
  | .dirichlet s => .dirichlet s.q
  | .reflecting => .reflecting

/-- the boundary edge of the run without tracers -/
def TBEdge.flow (e : TBEdge) : BEdge := ⟨e.cell, e.len, e.sn, e.cn, e.bc.flow⟩

/-- the mesh of the run without tracers -/
def PMesh.withFlow (pm : PMesh) (bnd : List TBEdge) : PMesh := { pm with boundary := bnd.map TBEdge.flow }

/-- States for which `h_anuga_regular` makes no difference: it is 0, or there is no water, or no
motion. -/
def VelOK (P : FlowParams) (q : Cons) : Prop :=
  P.hAnuga = 0 ∨ q.h < P.tinyH ∨ (q.hu = 0 ∧ q.hv = 0)

/-- the same for the values a boundary prescribes -/
def BCVelOK (P : FlowParams) : TBCond → Prop
  | .dirichlet s => VelOK P s.q
  | .reflecting => True

/-! ### Folds -/

theorem foldlM_map {α σ τ : Type} (step : σ → α → Option σ) (step' : τ → α → Option τ) (φ : σ → τ) :
    ∀ (l : List α) (f : σ), (∀ f, ∀ e ∈ l, (step f e).map φ = step' (φ f) e) →
      (l.foldlM step f).map φ = l.foldlM step' (φ f)
  | [], f, _ => rfl
  | a :: l, f, H => by
      have h1 := H f a (by simp)
      rw [List.foldlM_cons, List.foldlM_cons, ← h1]
      cases hs : step f a with
      | none => rfl
      | some f1 => exact foldlM_map step step' φ l f1 fun f e he => H f e (List.mem_cons_of_mem _ he)

theorem foldlM_congr {α σ : Type} (s1 s2 : σ → α → Option σ) :
    ∀ (l : List α) (f : σ), (∀ f, ∀ e ∈ l, s1 f e = s2 f e) → l.foldlM s1 f = l.foldlM s2 f
  | [], _, _ => rfl
  | a :: l, f, H => by
      rw [List.foldlM_cons, List.foldlM_cons, H f a (by simp)]
      cases hs : s2 f a with
      | none => rfl
      | some f1 => exact foldlM_congr s1 s2 l f1 fun f e he => H f e (List.mem_cons_of_mem _ he)

/-! ### Single edges and cells -/

theorem flowOf_add (pm : PMesh) (f : ℕ → ℕ → ℝ) (c : ℕ) (F : ℕ → ℝ) (s : ℝ) :
    flowOf (addOwnedT pm f c F s) = addOwned pm (flowOf f) c ((toFlux F).smul s) := by
  unfold addOwnedT addOwned
  by_cases ho : pm.owned c = true
  · rw [if_pos ho, if_pos ho]
    funext i
    unfold addAt flowOf
    by_cases hi : i = pm.l2o c
    · simp only [if_pos hi]; rfl
    · simp only [if_neg hi]
  · rw [if_neg ho, if_neg ho]

theorem tracerFlux_flow (sv : TSolver) (g : ℝ) (n : ℕ) (L R : TPrim) (sn cn : ℝ) :
    (tracerFlux sv g n L R sn cn).map toFlux = (roeFlux g L.p R.p sn cn).map Prod.fst := by
  cases h : tracerFlux sv g n L R sn cn with
  | none =>
    have : roeFlux g L.p R.p sn cn = none := by
      unfold tracerFlux at h
      unfold roeFlux
      by_cases hd : RoeDefined L.p.h R.p.h
      · rw [if_pos hd] at h
        cases sv <;> simp at h
      · rw [if_neg hd]
    rw [this]; rfl
  | some F =>
    obtain ⟨G, a, h1, h2, h3, h4⟩ := tracerFlux_some h
    rw [h1]
    simp only [Option.map_some, toFlux, h2, h3, h4]

theorem usedTracerFlux_flow (sv : TSolver) (g tinyH : ℝ) (n : ℕ) (L R : TPrim) (sn cn : ℝ) :
    (usedTracerFlux sv g tinyH n L R sn cn).map toFlux = usedFlux g tinyH L.p R.p sn cn := by
  unfold usedTracerFlux usedFlux
  by_cases hw : ¬ (R.p.h < tinyH ∧ L.p.h < tinyH)
  · rw [if_pos hw, if_pos hw, tracerFlux_flow]
  · rw [if_neg hw, if_neg hw]; rfl

theorem hrTFlux_flow (sv : TSolver) (P : FlowParams) (n : ℕ) (L R : TPrim) (sn cn : ℝ) :
    (hrTFlux sv P n L R sn cn).map toFlux = hrFlux P L.p R.p sn cn := by
  unfold hrTFlux hrFlux
  by_cases hw : L.p.h > P.tinyH ∨ R.p.h > P.tinyH
  · rw [if_pos hw, if_pos hw, tracerFlux_flow]
  · rw [if_neg hw, if_neg hw]; rfl

theorem toFlux_corr (P : FlowParams) (h hrec sn cn : ℝ) :
    toFlux (hrTCorrection P h hrec sn cn) = hrCorrection P h hrec sn cn := by
  unfold toFlux hrTCorrection hrCorrection
  simp

theorem velocities_flow {P : FlowParams} (ht : 0 < P.tinyH) {s : TCons} (h : VelOK P s.q) :
    (tracerVelocities P.tinyH s).p = velocities P.tinyH P.hAnuga s.q := by
  unfold tracerVelocities velocities
  by_cases hd : s.q.h < P.tinyH
  · rw [if_pos hd, if_pos hd]
  · rw [if_neg hd, if_neg hd]
    have hp : s.q.h ≠ 0 := ne_of_gt (lt_of_lt_of_le ht (not_lt.mp hd))
    rcases h with h | h | ⟨h1, h2⟩
    · simp only [h, mul_zero, add_zero]
      rw [mul_div_mul_right _ _ hp, mul_div_mul_right _ _ hp]
    · exact absurd h hd
    · simp only [h1, h2, zero_mul, zero_div]

theorem velOK_zero (P : FlowParams) (q : Cons) : VelOK { P with hAnuga := 0 } q := Or.inl rfl

theorem hrTEdge_flow (sv : TSolver) (P : FlowParams) (n : ℕ) (pm : PMesh) (u : ℕ → TCons)
    (f : ℕ → ℕ → ℝ) (e : IEdge) :
    (hrTEdge sv P n pm u f e).map flowOf = hrEdge P pm (fun c => (u c).q) (flowOf f) e := by
  unfold hrTEdge hrEdge
  cases e.right with
  | none => rfl
  | some r =>
    simp only
    by_cases hd : (u r).q.h < P.tinyH ∧ (u e.left).q.h < P.tinyH
    · rw [if_pos hd, if_pos hd]; rfl
    · rw [if_neg hd, if_neg hd]
      have h := hrTFlux_flow sv P n (hrTState P (pm.zc e.left) (max (pm.zc e.left) (pm.zc r)) (u e.left))
        (hrTState P (pm.zc r) (max (pm.zc e.left) (pm.zc r)) (u r)) e.sn e.cn
      unfold hrTState at h ⊢
      simp only at h ⊢
      rw [← h]
      rw [Option.map_map, Option.map_map]
      congr 1
      funext F
      simp only [Function.comp, flowOf_add, toFlux_corr]
      rfl

theorem tracerEdge_flow (sv : TSolver) {P : FlowParams} (n : ℕ) (pm : PMesh) (u : ℕ → TCons)
    (ht : 0 < P.tinyH) (hu : ∀ c, VelOK P (u c).q) (f : ℕ → ℕ → ℝ) (e : IEdge) :
    (tracerEdge sv P n pm u f e).map flowOf = interiorEdge P pm (fun c => (u c).q) (flowOf f) e := by
  unfold tracerEdge interiorEdge
  cases e.right with
  | none => rfl
  | some r =>
    simp only
    have h := usedTracerFlux_flow sv P.g P.tinyH n (tracerVelocities P.tinyH (u e.left))
        (tracerVelocities P.tinyH (u r)) e.sn e.cn
    rw [velocities_flow ht (hu _), velocities_flow ht (hu _)] at h
    rw [← h, Option.map_map, Option.map_map]
    congr 1
    funext F
    simp only [Function.comp, flowOf_add]
    rfl

theorem tracerBEdge_flow (sv : TSolver) {P : FlowParams} (n : ℕ) (pm : PMesh) (bnd : List TBEdge)
    (u : ℕ → TCons) (ht : 0 < P.tinyH) (e : TBEdge) (hu : VelOK P (u e.cell).q) (hb : BCVelOK P e.bc)
    (f : ℕ → ℕ → ℝ) :
    (tracerBEdge sv P n pm u f e).map flowOf =
      boundaryEdge P (pm.withFlow bnd) (fun c => (u c).q) (flowOf f) e.flow := by
  unfold tracerBEdge boundaryEdge
  have ho' : (pm.withFlow bnd).owned e.flow.cell = pm.owned e.cell := rfl
  by_cases ho : pm.owned e.cell = true
  · rw [ho', if_pos ho, if_pos ho]
    have h := usedTracerFlux_flow sv P.g P.tinyH n (tracerVelocities P.tinyH (u e.cell))
        (tracerRight P.tinyH e.bc (tracerVelocities P.tinyH (u e.cell)) e.sn e.cn) e.sn e.cn
    have hs : boundaryStates P.g P.tinyH P.hAnuga e.flow.bc (u e.flow.cell).q e.flow.sn e.flow.cn =
        ((tracerVelocities P.tinyH (u e.cell)).p,
          (tracerRight P.tinyH e.bc (tracerVelocities P.tinyH (u e.cell)) e.sn e.cn).p) := by
      change boundaryStates P.g P.tinyH P.hAnuga e.bc.flow (u e.cell).q e.sn e.cn = _
      rw [velocities_flow ht hu]
      cases hbc : e.bc with
      | dirichlet s =>
        rw [hbc] at hb
        simp only [TBCond.flow, boundaryStates, tracerRight]
        rw [velocities_flow ht hb]
      | reflecting =>
        simp only [TBCond.flow, boundaryStates, tracerRight]
        rw [velocities_flow ht hu]
    rw [hs]
    change _ = Option.map _ (usedFlux P.g P.tinyH _ _ e.sn e.cn)
    rw [← h, Option.map_map, Option.map_map]
    congr 1
    funext F
    simp only [Function.comp, flowOf_add]
    rfl
  · rw [ho', if_neg ho, if_neg ho]; rfl

theorem tracerSourceCell_flow (P : FlowParams) (sl : Bool) (n : ℕ) (pm : PMesh) (dt : ℝ)
    (src : ℕ → ℕ → ℝ) (mann : ℕ → ℝ) (fd : ℕ → ℕ → ℝ) (u : ℕ → TCons) (f : ℕ → ℕ → ℝ) (c : ℕ) :
    (tracerSourceCell P sl n pm dt src mann fd u f c).map flowOf =
      sourceCell P .semiImplicit sl pm dt (fun i => toFlux (src i)) (fun _ => mann c) (flowOf fd)
        (fun c => (u c).q) (flowOf f) c := by
  unfold tracerSourceCell sourceCell
  by_cases ho : pm.owned c = true
  · rw [if_pos ho, if_pos ho]
    simp only [friction, flowOf, tracerManningIndex]
    rw [Option.map_map]
    congr 1
    funext t
    change flowOf _ = _
    rw [flowOf_add]
    unfold addOwned
    rw [if_pos ho]
    congr 1
    simp [toFlux, Flux.smul]
  · rw [if_neg ho, if_neg ho]; rfl

/-! ### The whole right-hand side -/

/-- The flow part of a right-hand side with tracers, written without tracers: `PB` are the parameters at
boundaries and, without hydrostatic reconstruction, at internal edges. -/
noncomputable def flowRhs (hr : Bool) (P PB : FlowParams) (pm : PMesh) (dt : ℝ) (src : ℕ → Flux)
    (mann : ℕ → ℝ) (u : ℕ → Cons) : Option (ℕ → Flux) :=
  ((if hr then applyInteriorHR P pm u fun _ => Flux.zero
    else applyInterior PB pm u fun _ => Flux.zero).bind fun f1 => applyBoundary PB pm u f1).bind fun fd =>
  (List.range pm.numCells).foldlM
    (fun f c => sourceCell P .semiImplicit (!hr) pm dt src (fun _ => mann c) fd u f c) fd

theorem bind_map_flow {α β γ δ : Type} {o : Option α} {o' : Option β} {φ : α → β} {ψ : γ → δ}
    {k : α → Option γ} {k' : β → Option δ} (h : o.map φ = o') (hk : ∀ a, (k a).map ψ = k' (φ a)) :
    (o.bind k).map ψ = o'.bind k' := by
  subst h
  cases o with
  | none => rfl
  | some a => exact hk a

theorem tracerRhs_flow (hr : Bool) (sv : TSolver) (P PB : FlowParams) (n : ℕ) (pm : PMesh)
    (bnd : List TBEdge) (dt : ℝ) (src : ℕ → ℕ → ℝ) (mann : ℕ → ℝ) (u : ℕ → TCons) (ht : 0 < P.tinyH)
    (hg : PB.g = P.g) (hty : PB.tinyH = P.tinyH) (hu : hr = false → ∀ c, VelOK PB (u c).q)
    (hb : ∀ e ∈ bnd, VelOK PB (u e.cell).q ∧ BCVelOK PB e.bc) :
    (tracerRhs hr sv P n pm bnd dt src mann u).map flowOf =
      flowRhs hr P PB (pm.withFlow bnd) dt (fun i => toFlux (src i)) mann fun c => (u c).q := by
  have htB : 0 < PB.tinyH := by rw [hty]; exact ht
  have hB : ∀ e ∈ bnd, ∀ f, (tracerBEdge sv P n pm u f e).map flowOf =
      boundaryEdge PB (pm.withFlow bnd) (fun c => (u c).q) (flowOf f) e.flow := by
    intro e he f
    rw [← tracerBEdge_flow sv n pm bnd u htB e (hb e he).1 (hb e he).2]
    unfold tracerBEdge
    rw [hg, hty]
  have hz : flowOf (fun _ _ => 0) = fun _ => Flux.zero := rfl
  have hdiv : (tracerDiv hr sv P n pm bnd u).map flowOf =
      (if hr then applyInteriorHR P (pm.withFlow bnd) (fun c => (u c).q) fun _ => Flux.zero
        else applyInterior PB (pm.withFlow bnd) (fun c => (u c).q) fun _ => Flux.zero).bind fun f1 =>
      applyBoundary PB (pm.withFlow bnd) (fun c => (u c).q) f1 := by
    have hbnd : ∀ f, (bnd.foldlM (tracerBEdge sv P n pm u) f).map flowOf =
        applyBoundary PB (pm.withFlow bnd) (fun c => (u c).q) (flowOf f) := by
      intro f
      unfold applyBoundary
      change _ = (bnd.map TBEdge.flow).foldlM _ _
      rw [List.foldlM_map]
      exact foldlM_map _ _ flowOf bnd f fun f e he => hB e he f
    unfold tracerDiv
    cases hr with
    | true =>
      rw [if_pos rfl, if_pos rfl]
      unfold tracerDivergenceHR
      refine bind_map_flow ?_ hbnd
      unfold applyInteriorHR
      rw [← hz]
      exact foldlM_map _ _ flowOf pm.internal _ fun f e _ => hrTEdge_flow sv P n pm u f e
    | false =>
      rw [if_neg (by simp), if_neg (by simp)]
      unfold tracerDivergence
      refine bind_map_flow ?_ hbnd
      unfold applyInterior
      rw [← hz]
      refine foldlM_map _ _ flowOf pm.internal _ fun f e _ => ?_
      change _ = interiorEdge PB pm _ _ _
      rw [← tracerEdge_flow sv n pm u htB (hu rfl)]
      unfold tracerEdge
      rw [hg, hty]
  unfold tracerRhs flowRhs
  refine bind_map_flow hdiv fun fd => ?_
  unfold applyTracerSource
  exact foldlM_map _ _ flowOf _ _ fun f c _ => tracerSourceCell_flow P (!hr) n pm dt src mann fd u f c

/-! ### C84 -/

/-- C84. Tracers are passive: the flow components of the right-hand side depend neither on the amounts of
tracer in the cells, in the water entering at the boundaries or in the external sources, nor on the number of
tracers, nor on the solver chosen for tracers. With and without hydrostatic reconstruction, on every mesh. -/
theorem C84_passive (hr : Bool) (sv sv' : TSolver) (P : FlowParams) (n n' : ℕ) (pm : PMesh)
    {bnd bnd' : List TBEdge} (dt : ℝ) {src src' : ℕ → ℕ → ℝ} (mann : ℕ → ℝ) {u u' : ℕ → TCons}
    (ht : 0 < P.tinyH) (hu : ∀ c, (u' c).q = (u c).q) (hb : bnd'.map TBEdge.flow = bnd.map TBEdge.flow)
    (hs : ∀ i, ∀ d < 3, src' i d = src i d) :
    (tracerRhs hr sv' P n' pm bnd' dt src' mann u').map flowOf =
      (tracerRhs hr sv P n pm bnd dt src mann u).map flowOf := by
  have hB : ∀ (bc : TBCond), BCVelOK { P with hAnuga := 0 } bc := by
    intro bc
    cases bc with
    | dirichlet s => exact velOK_zero P s.q
    | reflecting => trivial
  rw [tracerRhs_flow hr sv' P { P with hAnuga := 0 } n' pm bnd' dt src' mann u' ht rfl rfl
      (fun _ c => velOK_zero P _) (fun e _ => ⟨velOK_zero P _, hB _⟩),
    tracerRhs_flow hr sv P { P with hAnuga := 0 } n pm bnd dt src mann u ht rfl rfl
      (fun _ c => velOK_zero P _) (fun e _ => ⟨velOK_zero P _, hB _⟩)]
  have h1 : pm.withFlow bnd' = pm.withFlow bnd := by unfold PMesh.withFlow; rw [hb]
  have h2 : (fun c => (u' c).q) = fun c => (u c).q := funext hu
  have h3 : (fun i => toFlux (src' i)) = fun i => toFlux (src i) := by
    funext i
    unfold toFlux
    rw [hs i 0 (by norm_num), hs i 1 (by norm_num), hs i 2 (by norm_num)]
  rw [h1, h2, h3]

example (s : TCons) (hc : ℕ → ℝ) (dt : ℝ) (mann : ℕ → ℝ) :
    (tracerRhs true .upwind exParams 3 (exSquares 1)
      [⟨0, 1, 0, -1, .dirichlet ⟨⟨2, 1, 0⟩, fun _ => 5⟩⟩, ⟨1, 1, 0, 1, .reflecting⟩] dt (fun _ _ => 0)
      mann (fun _ => s)).map flowOf =
    (tracerRhs true .roe exParams 1 (exSquares 1)
      [⟨0, 1, 0, -1, .dirichlet ⟨⟨2, 1, 0⟩, fun _ => 0⟩⟩, ⟨1, 1, 0, 1, .reflecting⟩] dt
      (fun _ d => if d < 3 then 0 else 7) mann (fun _ => ⟨s.q, hc⟩)).map flowOf :=
  C84_passive true .roe .upwind exParams 1 3 (exSquares 1) dt mann (by norm_num [exParams])
    (fun _ => rfl) rfl (fun _ d hd => by simp [hd])

/-- C84, partial. The flow of a run with tracers is the flow of the run without: their right-hand sides agree
in all flow components, with and without hydrostatic reconstruction, on every mesh, provided that
`h_anuga_regular` is 0 (or makes no difference), and that the roughness of a cell has the same position in the
local and the owned numbering (C67; `mann'` is the vector of the run without tracers). -/
theorem C84_partial (hr : Bool) (sv : TSolver) (P : FlowParams) (n : ℕ) (pm : PMesh)
    (bnd : List TBEdge) (dt : ℝ) (src : ℕ → ℕ → ℝ) {mann mann' : ℕ → ℝ} (u : ℕ → TCons)
    (ht : 0 < P.tinyH) (hu : hr = false → ∀ c, VelOK P (u c).q)
    (hb : ∀ e ∈ bnd, VelOK P (u e.cell).q ∧ BCVelOK P e.bc)
    (hm : ∀ c < pm.numCells, pm.owned c = true → mann' (pm.l2o c) = mann c) :
    (tracerRhs hr sv P n pm bnd dt src mann u).map flowOf =
      rhs P .semiImplicit hr (pm.withFlow bnd) dt (fun i => toFlux (src i)) mann' fun c => (u c).q := by
  rw [tracerRhs_flow hr sv P P n pm bnd dt src mann u ht rfl rfl hu hb]
  unfold flowRhs rhs
  rw [Option.bind_assoc]
  congr 1
  funext f1
  congr 1
  funext fd
  unfold applySource
  apply foldlM_congr
  intro f c hc
  unfold sourceCell
  by_cases ho : (pm.withFlow bnd).owned c = true
  · rw [if_pos ho, if_pos ho]
    have : mann' ((pm.withFlow bnd).l2o c) = mann c := hm c (List.mem_range.mp hc) ho
    rw [this]
  · rw [if_neg ho, if_neg ho]

example (u : ℕ → TCons) (dt : ℝ) (src : ℕ → ℕ → ℝ) (mann : ℕ → ℝ) :
    (tracerRhs false .upwind exParams 3 (exSquares 1) [⟨0, 1, 0, -1, .dirichlet ⟨⟨2, 1, 0⟩, fun _ => 5⟩⟩]
      dt src mann u).map flowOf =
    rhs exParams .semiImplicit false ((exSquares 1).withFlow
      [⟨0, 1, 0, -1, .dirichlet ⟨⟨2, 1, 0⟩, fun _ => 5⟩⟩]) dt (fun i => toFlux (src i)) mann
      fun c => (u c).q :=
  C84_partial false .upwind exParams 3 (exSquares 1) _ dt src u (by norm_num [exParams])
    (fun _ _ => Or.inl rfl) (fun e he => by
      simp only [List.mem_singleton] at he
      subst he
      exact ⟨Or.inl rfl, Or.inl rfl⟩) (fun _ _ _ => rfl)

/-- C84. With hydrostatic reconstruction the internal edges agree whatever `h_anuga_regular` is. -/
theorem C84_hr_interior (sv : TSolver) (P : FlowParams) (n : ℕ) (pm : PMesh) (u : ℕ → TCons) :
    (pm.internal.foldlM (hrTEdge sv P n pm u) fun _ _ => 0).map flowOf =
      applyInteriorHR P pm (fun c => (u c).q) fun _ => Flux.zero := by
  unfold applyInteriorHR
  exact foldlM_map _ _ flowOf pm.internal _ fun f e _ => hrTEdge_flow sv P n pm u f e

/-- One unit cell with a boundary edge through which water of depth 1 flows out at discharge 1 -/
noncomputable def outCell : PMesh where
  numCells := 1
  area _ := 1
  owned _ := true
  l2o c := c
  internal := []
  boundary := []
  dzdx _ := 0
  dzdy _ := 0
  zc _ := 0

/-- C84 (disagreement). With `h_anuga_regular` 1, switching on a tracer doubles the discharge: water of depth 1
with discharge 1 leaves the cell through a boundary edge of length 1 at the rate 1 in the run with tracers,
at the rate 1/2 in the run without (which regularises the velocity). With and without hydrostatic
reconstruction. -/
theorem C84_anuga_violated (hr : Bool) (sv : TSolver) (n : ℕ) (hc : ℕ → ℝ) :
    ∃ f f', tracerRhs hr sv ⟨1, 1 / 2, 1, 1⟩ n outCell [⟨0, 1, 0, 1, .dirichlet ⟨⟨1, 1, 0⟩, hc⟩⟩] 1
        (fun _ _ => 0) (fun _ => 0) (fun _ => ⟨⟨1, 1, 0⟩, hc⟩) = some f ∧
      rhs ⟨1, 1 / 2, 1, 1⟩ .semiImplicit hr
        (outCell.withFlow [⟨0, 1, 0, 1, .dirichlet ⟨⟨1, 1, 0⟩, hc⟩⟩]) 1 (fun _ => ⟨0, 0, 0⟩) (fun _ => 0)
        (fun _ => ⟨1, 1, 0⟩) = some f' ∧
      f 0 0 = -1 ∧ (f' 0).m = -(1 / 2) := by
  have key : ∀ a : ℝ, ∃ f', flowRhs hr ⟨1, 1 / 2, 1, 1⟩ ⟨1, 1 / 2, a, 1⟩
      (outCell.withFlow [⟨0, 1, 0, 1, .dirichlet ⟨⟨1, 1, 0⟩, hc⟩⟩]) 1 (fun _ => ⟨0, 0, 0⟩) (fun _ => 0)
      (fun _ => ⟨1, 1, 0⟩) = some f' ∧ (f' 0).m = -(1 / (1 + a * a)) := by
    intro a
    have hv : velocities (1 / 2) a ⟨1, 1, 0⟩ = ⟨1, 1 / (1 + a * a), 0⟩ := by
      unfold velocities
      rw [if_neg (by norm_num)]
      norm_num
    have hF : usedFlux 1 (1 / 2) ⟨1, 1 / (1 + a * a), 0⟩ ⟨1, 1 / (1 + a * a), 0⟩ 0 1 =
        some (physFlux 1 ⟨1, 1 / (1 + a * a), 0⟩ 1 0) := by
      unfold usedFlux
      rw [if_pos (by norm_num), C36_consistent _ _ _ (by norm_num) (by norm_num)]
      rfl
    have hi : (if hr then applyInteriorHR ⟨1, 1 / 2, 1, 1⟩
          (outCell.withFlow [⟨0, 1, 0, 1, .dirichlet ⟨⟨1, 1, 0⟩, hc⟩⟩]) (fun _ => ⟨1, 1, 0⟩) fun _ => Flux.zero
        else applyInterior ⟨1, 1 / 2, a, 1⟩
          (outCell.withFlow [⟨0, 1, 0, 1, .dirichlet ⟨⟨1, 1, 0⟩, hc⟩⟩]) (fun _ => ⟨1, 1, 0⟩) fun _ => Flux.zero) =
        some fun _ => Flux.zero := by
      cases hr <;> rfl
    have hbd : applyBoundary ⟨1, 1 / 2, a, 1⟩
        (outCell.withFlow [⟨0, 1, 0, 1, .dirichlet ⟨⟨1, 1, 0⟩, hc⟩⟩]) (fun _ => ⟨1, 1, 0⟩)
        (fun _ => Flux.zero) = some (addOwned outCell (fun _ => Flux.zero) 0
          ((physFlux 1 ⟨1, 1 / (1 + a * a), 0⟩ 1 0).smul (-1 / 1))) := by
      unfold applyBoundary
      change List.foldlM _ _ [_] = _
      rw [List.foldlM_cons]
      unfold boundaryEdge
      rw [if_pos (show (outCell.withFlow _).owned _ = true from rfl)]
      change (Option.map _ (usedFlux 1 (1 / 2) (velocities (1 / 2) a ⟨1, 1, 0⟩)
        (velocities (1 / 2) a ⟨1, 1, 0⟩) 0 1)).bind _ = _
      rw [hv, hF]
      rfl
    unfold flowRhs
    rw [hi, Option.bind_some, hbd, Option.bind_some]
    set fd := addOwned outCell (fun _ => Flux.zero) 0
          ((physFlux 1 ⟨1, 1 / (1 + a * a), 0⟩ 1 0).smul (-1 / 1)) with hfd
    have hfr : ∀ Fx Fy bx bY, frictionSemiImplicit ⟨1, 1 / 2, 1, 1⟩ 1 0 ⟨1, 1, 0⟩ Fx Fy bx bY =
        some (0, 0) := by
      intro Fx Fy bx bY
      unfold frictionSemiImplicit
      rw [if_pos (by norm_num)]
      norm_num
    change ∃ f', List.foldlM _ fd [0] = some f' ∧ _
    rw [List.foldlM_cons]
    unfold sourceCell
    rw [if_pos (show (outCell.withFlow _).owned _ = true from rfl)]
    simp only [friction]
    rw [hfr]
    refine ⟨_, rfl, ?_⟩
    simp [addAt, Flux.add, hfd, addOwned, outCell, Flux.zero, Flux.smul, physFlux, PMesh.withFlow]
  obtain ⟨f0, h0, e0⟩ := key 0
  obtain ⟨f1, h1, e1⟩ := key 1
  have hT := tracerRhs_flow hr sv ⟨1, 1 / 2, 1, 1⟩ ⟨1, 1 / 2, 0, 1⟩ n outCell
    [⟨0, 1, 0, 1, .dirichlet ⟨⟨1, 1, 0⟩, hc⟩⟩] 1 (fun _ _ => 0) (fun _ => 0) (fun _ => ⟨⟨1, 1, 0⟩, hc⟩)
    (by norm_num) rfl rfl (fun _ _ => Or.inl rfl) (fun e he => by
      simp only [List.mem_singleton] at he
      subst he
      exact ⟨Or.inl rfl, Or.inl rfl⟩)
  have hT' : (tracerRhs hr sv ⟨1, 1 / 2, 1, 1⟩ n outCell [⟨0, 1, 0, 1, .dirichlet ⟨⟨1, 1, 0⟩, hc⟩⟩] 1
        (fun _ _ => 0) (fun _ => 0) (fun _ => ⟨⟨1, 1, 0⟩, hc⟩)).map flowOf = some f0 := by
    rw [hT]; exact h0
  rw [Option.map_eq_some_iff] at hT'
  obtain ⟨f, hf, hfl⟩ := hT'
  refine ⟨f, f1, hf, ?_, ?_, by rw [e1]; norm_num⟩
  · rw [← h1]
    unfold flowRhs rhs
    rw [Option.bind_assoc]
    rfl
  · have : (flowOf f 0).m = f 0 0 := rfl
    rw [← this, hfl, e0]
    norm_num

end RDy
