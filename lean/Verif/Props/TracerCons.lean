import Verif.Props.Tracer

/-!
C47, C64, C65: donor-cell transport, conservation of tracers, the discrete maximum principle.
-/

namespace RDy

open Finset

/-! ### C47 -/

/-- C47. With the upwind solver, tracer `j` is carried with the concentration of the cell the water leaves;
the water leaves only cells that have water. -/
theorem C47_donor {g : ℝ} {n : ℕ} {L R : TPrim} {sn cn : ℝ} {F : ℕ → ℝ}
    (h : tracerFlux .upwind g n L R sn cn = some F) (j : ℕ) :
    (0 < F 0 → 0 < L.p.h ∧ F (3 + j) = F 0 * L.c j) ∧
    (F 0 < 0 → 0 < R.p.h ∧ F (3 + j) = F 0 * R.c j) ∧
    (F 0 = 0 → F (3 + j) = 0) := by
  unfold tracerFlux at h
  by_cases hd : RoeDefined L.p.h R.p.h
  · rw [if_pos hd] at h
    simp only [Option.some.injEq] at h
    subst h
    refine ⟨fun h => ⟨?_, ?_⟩, fun h => ⟨?_, ?_⟩, fun h => ?_⟩
    · rcases lt_or_eq_of_le hd.1 with h1 | h1
      · exact h1
      · have hR : 0 < R.p.h := by have := hd.2.2; linarith
        have := roe_mass_dry_left g hR h1.symm sn cn
        rw [upwindCombine_zero] at h
        linarith
    · rw [upwindCombine_tracer, if_pos (le_of_lt h)]
    · rcases lt_or_eq_of_le hd.2.1 with h1 | h1
      · exact h1
      · have hL : 0 < L.p.h := by have := hd.2.2; linarith
        have := roe_mass_dry_right g hL h1.symm sn cn
        rw [upwindCombine_zero] at h
        linarith
    · rw [upwindCombine_tracer, if_neg (not_le.mpr h)]
    · rw [upwindCombine_tracer, h, zero_mul]
  · rw [if_neg hd] at h
    exact absurd h (by simp)

/-- C47. Seen from the other side (states swapped, normal reversed), every component of the flux is the
opposite, for both solvers. -/
theorem C47_antisymmetric {sv : TSolver} {g : ℝ} {n : ℕ} {L R : TPrim} {sn cn : ℝ} {F : ℕ → ℝ}
    (h : tracerFlux sv g n L R sn cn = some F) :
    ∃ F', tracerFlux sv g n R L (-sn) (-cn) = some F' ∧ ∀ i < 3 + n, F' i = -F i := by
  unfold tracerFlux at h ⊢
  by_cases hd : RoeDefined L.p.h R.p.h
  · rw [if_pos hd] at h
    rw [if_pos (roeDefined_comm.mpr hd)]
    have hf := roe_mass_swap g L.p R.p sn cn hd
    cases sv with
    | roe =>
      simp only [Option.some.injEq] at h
      subst h
      refine ⟨_, rfl, ?_⟩
      obtain ⟨a0, a1, a2⟩ := tracerCombine_flow g n L R (roeEig g L.p R.p sn cn) sn cn
      obtain ⟨b0, b1, b2⟩ := tracerCombine_flow g n R L (roeEig g R.p L.p (-sn) (-cn)) (-sn) (-cn)
      rw [hf] at b0 b1 b2
      intro i hi
      rcases Nat.lt_or_ge i 3 with h3 | h3
      · interval_cases i
        · rw [a0, b0]; rfl
        · rw [a1, b1]; rfl
        · rw [a2, b2]; rfl
      · obtain ⟨j, rfl⟩ := Nat.exists_eq_add_of_le h3
        have hj : j < n := by omega
        rw [tracerCombine_tracer g R L _ _ _ hj, tracerCombine_tracer g L R _ _ _ hj, roeEig_swap]
        have hc : tracerChat R L j = tracerChat L R j := by
          unfold tracerChat
          exact roeAvg_comm _ _ _ _
        simp only [uperp_neg, hc]
        ring
    | upwind =>
      simp only [Option.some.injEq] at h
      subst h
      refine ⟨_, rfl, ?_⟩
      have h0 : upwindCombine g R L (roeEig g R.p L.p (-sn) (-cn)) (-sn) (-cn) 0 =
          -upwindCombine g L R (roeEig g L.p R.p sn cn) sn cn 0 := by
        rw [upwindCombine_zero, upwindCombine_zero, hf]; rfl
      intro i hi
      rcases Nat.lt_or_ge i 3 with h3 | h3
      · interval_cases i
        · exact h0
        · change (roeCombine _ _ _ _ _).x = -(roeCombine _ _ _ _ _).x
          rw [hf]; rfl
        · change (roeCombine _ _ _ _ _).y = -(roeCombine _ _ _ _ _).y
          rw [hf]; rfl
      · obtain ⟨j, rfl⟩ := Nat.exists_eq_add_of_le h3
        rw [upwindCombine_tracer, upwindCombine_tracer, h0]
        generalize upwindCombine g L R (roeEig g L.p R.p sn cn) sn cn 0 = m
        rcases lt_trichotomy m 0 with hm | hm | hm
        · rw [if_pos (by linarith), if_neg (by linarith)]; ring
        · rw [hm]; ring
        · rw [if_neg (by linarith), if_pos (by linarith)]; ring
  · rw [if_neg hd] at h
    exact absurd h (by simp)

example : ∃ F F', tracerFlux .upwind 9.806 2 ⟨⟨2, 1, -1⟩, fun j => j⟩ ⟨⟨1, 0, 2⟩, fun j => 5 + j⟩ 0.8 0.6 =
      some F ∧ tracerFlux .upwind 9.806 2 ⟨⟨1, 0, 2⟩, fun j => 5 + j⟩ ⟨⟨2, 1, -1⟩, fun j => j⟩ (-0.8) (-0.6) =
      some F' ∧ F' 4 = -F 4 := by
  have hd : RoeDefined (2 : ℝ) 1 := ⟨by norm_num, by norm_num, by norm_num⟩
  obtain ⟨F', h1, h2⟩ := C47_antisymmetric (sv := .upwind) (g := 9.806) (n := 2)
    (L := ⟨⟨2, 1, -1⟩, fun j => j⟩) (R := ⟨⟨1, 0, 2⟩, fun j => 5 + j⟩) (sn := 0.8) (cn := 0.6) (if_pos hd)
  exact ⟨_, F', if_pos hd, h1, h2 4 (by norm_num)⟩

/-! ### Definedness -/

theorem tracerVelocities_h (tinyH : ℝ) (s : TCons) : (tracerVelocities tinyH s).p.h = s.q.h := by
  unfold tracerVelocities
  split <;> rfl

theorem usedTracerFlux_isSome (sv : TSolver) (g : ℝ) {tinyH : ℝ} (n : ℕ) (L R : TPrim) (sn cn : ℝ)
    (ht : 0 < tinyH) (hL : 0 ≤ L.p.h) (hR : 0 ≤ R.p.h) :
    (usedTracerFlux sv g tinyH n L R sn cn).isSome := by
  unfold usedTracerFlux
  by_cases hw : R.p.h < tinyH ∧ L.p.h < tinyH
  · rw [if_neg (not_not.mpr hw)]; rfl
  · rw [if_pos hw]
    have hd : RoeDefined L.p.h R.p.h := by
      refine ⟨hL, hR, ?_⟩
      by_contra hc
      apply hw
      constructor <;> linarith
    unfold tracerFlux
    rw [if_pos hd]
    cases sv <;> rfl

/-- the depth a boundary prescribes is not negative -/
def BCNonneg : TBCond → Prop
  | .dirichlet s => 0 ≤ s.q.h
  | .reflecting => True

/-- C39, C46. The flux divergence with tracers is defined whenever no depth is negative. -/
theorem C39_tracer_defined (sv : TSolver) {P : FlowParams} (n : ℕ) (pm : PMesh) (bnd : List TBEdge)
    (u : ℕ → TCons) (ht : 0 < P.tinyH) (hu : ∀ c, 0 ≤ (u c).q.h) (hb : ∀ e ∈ bnd, BCNonneg e.bc) :
    (tracerDivergence sv P n pm bnd u).isSome := by
  unfold tracerDivergence
  have h1 : (pm.internal.foldlM (tracerEdge sv P n pm u) fun _ _ => 0).isSome := by
    apply foldlM_isSome
    intro f e _
    unfold tracerEdge
    cases e.right with
    | none => rfl
    | some r =>
      apply isSome_map'
      apply usedTracerFlux_isSome _ _ _ _ _ _ _ ht
      · rw [tracerVelocities_h]; exact hu _
      · rw [tracerVelocities_h]; exact hu _
  obtain ⟨f, hf⟩ := Option.isSome_iff_exists.mp h1
  rw [hf]
  change (bnd.foldlM (tracerBEdge sv P n pm u) f).isSome
  apply foldlM_isSome
  intro f e he
  unfold tracerBEdge
  by_cases ho : pm.owned e.cell = true
  · rw [if_pos ho]
    apply isSome_map'
    apply usedTracerFlux_isSome _ _ _ _ _ _ _ ht
    · rw [tracerVelocities_h]; exact hu _
    · have hbe := hb e he
      cases hbc : e.bc with
      | dirichlet s =>
        rw [hbc] at hbe
        change 0 ≤ (tracerVelocities P.tinyH s).p.h
        rw [tracerVelocities_h]; exact hbe
      | reflecting =>
        change 0 ≤ (tracerVelocities P.tinyH (u e.cell)).p.h
        rw [tracerVelocities_h]; exact hu _
  · rw [if_neg ho]; rfl

example : (tracerDivergence .roe exParams 3 (exSquares 0)
    [⟨0, 1, 0, -1, .dirichlet ⟨⟨2, 1, 0⟩, fun _ => 1⟩⟩, ⟨1, 1, 0, 1, .reflecting⟩]
    (fun c => ⟨⟨c, 1, 1⟩, fun j => j⟩)).isSome := by
  apply C39_tracer_defined _ _ _ _ _ (by norm_num [exParams])
  · intro c; exact Nat.cast_nonneg c
  · intro e he
    simp only [List.mem_cons, List.not_mem_nil, or_false] at he
    rcases he with h | h <;> subst h
    · change (0 : ℝ) ≤ 2; norm_num
    · trivial

/-! ### C65 -/

/-- area-weighted sum of component `d` over the owned cells of a process -/
noncomputable def ownedTotalT (pm : PMesh) (d : ℕ) (f : ℕ → ℕ → ℝ) : ℝ :=
  ∑ c ∈ range pm.numCells, if pm.owned c then pm.area c * f (pm.l2o c) d else 0

theorem ownedTotalT_add {pm : PMesh} (hinj : OwnedInj pm) (d : ℕ) (f : ℕ → ℕ → ℝ) {c : ℕ}
    (hc : c < pm.numCells) (F : ℕ → ℝ) (s : ℝ) :
    ownedTotalT pm d (addOwnedT pm f c F s) =
      ownedTotalT pm d f + if pm.owned c then pm.area c * (F d * s) else 0 := by
  unfold addOwnedT
  by_cases ho : pm.owned c = true
  · simp only [ho, if_true]
    unfold ownedTotalT
    have h : ∀ c' ∈ range pm.numCells,
        (if pm.owned c' then pm.area c' *
          (if pm.l2o c' = pm.l2o c then fun d => f (pm.l2o c') d + F d * s else f (pm.l2o c')) d else 0) =
        (if pm.owned c' then pm.area c' * f (pm.l2o c') d else 0) +
          if c' = c then pm.area c * (F d * s) else 0 := by
      intro c' hc'
      rw [mem_range] at hc'
      by_cases ho' : pm.owned c' = true
      · simp only [ho', if_true]
        by_cases e : c' = c
        · subst e
          simp only [if_true]
          ring
        · have hne : pm.l2o c' ≠ pm.l2o c := fun h => e (hinj c' hc' c hc ho' ho h)
          simp only [hne, e, if_false, add_zero]
      · have e : c' ≠ c := fun h => ho' (h ▸ ho)
        simp [ho', e]
    rw [sum_congr rfl h, sum_add_distrib]
    congr 1
    rw [sum_ite_eq' (range pm.numCells) c]
    simp [hc]
  · simp [ho]

/-- component `d` of the flux through an internal edge -/
noncomputable def edgeFluxT (sv : TSolver) (P : FlowParams) (n d : ℕ) (sL sR : TCons) (sn cn : ℝ) : ℝ :=
  (usedTracerFlux sv P.g P.tinyH n (tracerVelocities P.tinyH sL) (tracerVelocities P.tinyH sR)
    sn cn).getD (fun _ => 0) d

theorem edgeFluxT_swap (sv : TSolver) (P : FlowParams) {n d : ℕ} (hd : d < 3 + n) (sL sR : TCons)
    (sn cn : ℝ) :
    edgeFluxT sv P n d sR sL (-sn) (-cn) = -edgeFluxT sv P n d sL sR sn cn := by
  unfold edgeFluxT usedTracerFlux
  by_cases hw : (tracerVelocities P.tinyH sR).p.h < P.tinyH ∧ (tracerVelocities P.tinyH sL).p.h < P.tinyH
  · rw [if_neg (not_not.mpr hw), if_neg (not_not.mpr hw.symm)]
    simp
  · rw [if_pos hw, if_pos (fun h => hw h.symm)]
    cases hF : tracerFlux sv P.g n (tracerVelocities P.tinyH sL) (tracerVelocities P.tinyH sR) sn cn with
    | none =>
      have : tracerFlux sv P.g n (tracerVelocities P.tinyH sR) (tracerVelocities P.tinyH sL) (-sn) (-cn) =
          none := by
        unfold tracerFlux at hF ⊢
        by_cases hr : RoeDefined (tracerVelocities P.tinyH sL).p.h (tracerVelocities P.tinyH sR).p.h
        · rw [if_pos hr] at hF
          cases sv <;> simp at hF
        · rw [if_neg (fun h => hr (roeDefined_comm.mp h))]
      rw [this]; simp
    | some F =>
      obtain ⟨F', h1, h2⟩ := C47_antisymmetric hF
      rw [h1]
      exact h2 d hd

/-- amount by which an internal edge changes the area-weighted sum over owned cells -/
noncomputable def edgeChangeT (sv : TSolver) (P : FlowParams) (n d : ℕ) (pm : PMesh) (u : ℕ → TCons)
    (e : IEdge) : ℝ :=
  match e.right with
  | none => 0
  | some r =>
    (if pm.owned e.left then -e.len * edgeFluxT sv P n d (u e.left) (u r) e.sn e.cn else 0) +
      if pm.owned r then e.len * edgeFluxT sv P n d (u e.left) (u r) e.sn e.cn else 0

theorem tracerEdge_total {sv : TSolver} {P : FlowParams} {n d : ℕ} {pm : PMesh} (hinj : OwnedInj pm)
    (hv : EdgesValid pm) (u : ℕ → TCons) (f f' : ℕ → ℕ → ℝ) (e : IEdge) (he : e ∈ pm.internal)
    (h : tracerEdge sv P n pm u f e = some f') :
    ownedTotalT pm d f' = ownedTotalT pm d f + edgeChangeT sv P n d pm u e := by
  unfold tracerEdge at h
  unfold edgeChangeT
  cases hr : e.right with
  | none =>
    rw [hr] at h
    simp only [Option.some.injEq] at h
    subst h
    simp
  | some r =>
    rw [hr] at h
    simp only [Option.map_eq_some_iff] at h
    obtain ⟨F, hF, hf⟩ := h
    have hl := hv.left e he
    have hrr := hv.right e he r hr
    have hal := hv.area _ hl
    have har := hv.area _ hrr
    have hE : edgeFluxT sv P n d (u e.left) (u r) e.sn e.cn = F d := by
      unfold edgeFluxT
      rw [hF]
      rfl
    rw [← hf, ownedTotalT_add hinj _ _ hrr, ownedTotalT_add hinj _ _ hl]
    simp only [hE]
    rw [add_assoc]
    congr 2
    · split
      · field_simp
      · rfl
    · split
      · field_simp
      · rfl

/-- the cells of the boundary edges are local cells -/
def BndValid (pm : PMesh) (bnd : List TBEdge) : Prop := ∀ e ∈ bnd, e.cell < pm.numCells

/-- component `d` of the flux out of the domain through a boundary edge -/
noncomputable def bndFluxT (sv : TSolver) (P : FlowParams) (n d : ℕ) (u : ℕ → TCons) (e : TBEdge) : ℝ :=
  (usedTracerFlux sv P.g P.tinyH n (tracerVelocities P.tinyH (u e.cell))
    (tracerRight P.tinyH e.bc (tracerVelocities P.tinyH (u e.cell)) e.sn e.cn) e.sn e.cn).getD
      (fun _ => 0) d

/-- Tracer (or water) leaving the domain per unit time through the boundary edges of a process. -/
noncomputable def outflowRateT (sv : TSolver) (P : FlowParams) (n d : ℕ) (pm : PMesh) (bnd : List TBEdge)
    (u : ℕ → TCons) : ℝ :=
  (bnd.map fun e => if pm.owned e.cell then e.len * bndFluxT sv P n d u e else 0).sum

theorem tracerBEdge_total {sv : TSolver} {P : FlowParams} {n d : ℕ} {pm : PMesh} (hinj : OwnedInj pm)
    (hv : EdgesValid pm) (u : ℕ → TCons) (f f' : ℕ → ℕ → ℝ) (e : TBEdge) (he : e.cell < pm.numCells)
    (h : tracerBEdge sv P n pm u f e = some f') :
    ownedTotalT pm d f' = ownedTotalT pm d f +
      -(if pm.owned e.cell then e.len * bndFluxT sv P n d u e else 0) := by
  unfold tracerBEdge at h
  by_cases ho : pm.owned e.cell = true
  · rw [if_pos ho] at h
    simp only [Option.map_eq_some_iff] at h
    obtain ⟨F, hF, hf⟩ := h
    have hal := hv.area _ he
    have hE : bndFluxT sv P n d u e = F d := by
      unfold bndFluxT
      rw [hF]
      rfl
    rw [← hf, ownedTotalT_add hinj _ _ he]
    simp only [hE, ho, if_true]
    congr 1
    field_simp
  · rw [if_neg ho] at h
    simp only [Option.some.injEq] at h
    subst h
    simp [ho]

theorem tracerDivergence_total {sv : TSolver} {P : FlowParams} {n d : ℕ} {pm : PMesh}
    (hinj : OwnedInj pm) (hv : EdgesValid pm) {bnd : List TBEdge} (hb : BndValid pm bnd) {u : ℕ → TCons}
    {f : ℕ → ℕ → ℝ} (h : tracerDivergence sv P n pm bnd u = some f) :
    ownedTotalT pm d f = (pm.internal.map (edgeChangeT sv P n d pm u)).sum -
      outflowRateT sv P n d pm bnd u := by
  unfold tracerDivergence at h
  rw [Option.bind_eq_some_iff] at h
  obtain ⟨f1, h1, h2⟩ := h
  have e1 := foldlM_sum _ (ownedTotalT pm d) _ pm.internal _ _
    (fun f e f' he hs => tracerEdge_total hinj hv u f f' e he hs) h1
  have e2 := foldlM_sum _ (ownedTotalT pm d) _ bnd _ _
    (fun f e f' he hs => tracerBEdge_total hinj hv u f f' e (hb e he) hs) h2
  rw [e2, e1]
  have h0 : ownedTotalT pm d (fun _ _ => 0) = 0 := by
    unfold ownedTotalT
    simp
  rw [h0, zero_add, sub_eq_add_neg]
  congr 1
  unfold outflowRateT
  have neg_sum : ∀ l : List TBEdge, (l.map fun e => -(if pm.owned e.cell then e.len * bndFluxT sv P n d u e
      else 0)).sum = -(l.map fun e => if pm.owned e.cell then e.len * bndFluxT sv P n d u e else 0).sum := by
    intro l
    induction l with
    | nil => simp
    | cons a l ih => simp only [List.map_cons, List.sum_cons, ih]; ring
  exact neg_sum bnd

theorem tracer_partition_zero {np : ℕ} {sv : TSolver} {P : FlowParams} {n d : ℕ} (hd : d < 3 + n)
    {pm : Fin np → PMesh} {gid : Fin np → ℕ → ℕ}
    {owner : ℕ → Fin np} {G : List GEdge} {seen : Fin np → GEdge → Bool}
    (hp : Partitioned np pm gid owner G seen) (U : ℕ → TCons) :
    ∑ p, ((pm p).internal.map (edgeChangeT sv P n d (pm p) fun c => U (gid p c))).sum = 0 := by
  apply partition_sum_zero hp (fun ge => edgeFluxT sv P n d (U ge.c1) (U ge.c2) ge.sn ge.cn)
  · intro p e he
    unfold edgeChangeT
    rw [he]
  · intro p ge _ le hle hs
    obtain ⟨r, hr, hlen, hcase⟩ := hs
    have hl := (hp.valid p).left le hle
    have hrr := (hp.valid p).right le hle r hr
    have hol := hp.owned p le.left hl
    have hor := hp.owned p r hrr
    unfold edgeChangeT
    rw [hr]
    simp only
    rcases hcase with ⟨h1, h2, h3, h4⟩ | ⟨h1, h2, h3, h4⟩
    · rw [h1] at hol ⊢
      rw [h2] at hor ⊢
      rw [h3, h4, hlen]
      simp only [hol, hor]
    · rw [h1] at hol ⊢
      rw [h2] at hor ⊢
      rw [h3, h4, hlen, edgeFluxT_swap sv P hd]
      simp only [hol, hor]
      rw [add_comm]
      congr 1
      · split <;> ring
      · split <;> ring

/-- Mass of tracer `j` in the domain. -/
noncomputable def globalTracer {np : ℕ} (pm : Fin np → PMesh) (gid : Fin np → ℕ → ℕ) (j : ℕ)
    (U : ℕ → TCons) : ℝ :=
  ∑ p, ∑ c ∈ range (pm p).numCells, if (pm p).owned c then (pm p).area c * (U (gid p c)).hc j else 0

/-- C65. Balance of tracer mass: after any number of transport steps, on any distributed mesh, the mass of
each tracer has changed exactly by what crossed the domain boundary. -/
theorem C65_balance {np : ℕ} {sv : TSolver} {P : FlowParams} {n : ℕ} {pm : Fin np → PMesh}
    {bnd : Fin np → List TBEdge} {gid : Fin np → ℕ → ℕ} {owner : ℕ → Fin np} {G : List GEdge}
    {seen : Fin np → GEdge → Bool} (hp : Partitioned np pm gid owner G seen)
    (hb : ∀ p, BndValid (pm p) (bnd p)) {j : ℕ} (hj : j < n) (dt : ℕ → ℝ) (U : ℕ → ℕ → TCons) (N : ℕ)
    (h : ∀ i < N, TransportStep sv P n pm bnd gid (dt i) (U i) (U (i + 1))) :
    globalTracer pm gid j (U N) = globalTracer pm gid j (U 0) -
      ∑ i ∈ range N, dt i * ∑ p, outflowRateT sv P n (3 + j) (pm p) (bnd p) fun c => U i (gid p c) := by
  induction N with
  | zero => simp
  | succ N ih =>
    have ih' := ih fun i hi => h i (Nat.lt_succ_of_lt hi)
    have hN := h N (Nat.lt_succ_self N)
    choose f hf hU using hN
    have hz := tracer_partition_zero (sv := sv) (P := P) (n := n) (d := 3 + j) (by omega) hp (U N)
    have ht : ∀ p, ownedTotalT (pm p) (3 + j) (f p) =
        ((pm p).internal.map (edgeChangeT sv P n (3 + j) (pm p) fun c => U N (gid p c))).sum -
          outflowRateT sv P n (3 + j) (pm p) (bnd p) fun c => U N (gid p c) := fun p =>
      tracerDivergence_total (hp.inj p) (hp.valid p) (hb p) (hf p)
    have hstep : globalTracer pm gid j (U (N + 1)) = globalTracer pm gid j (U N) +
        dt N * ∑ p, ownedTotalT (pm p) (3 + j) (f p) := by
      unfold globalTracer ownedTotalT
      rw [mul_sum, ← sum_add_distrib]
      apply sum_congr rfl
      intro p _
      rw [mul_sum, ← sum_add_distrib]
      apply sum_congr rfl
      intro c hc
      by_cases ho : (pm p).owned c = true
      · simp only [ho, if_true]
        rw [(hU p c (mem_range.mp hc) ho).2 j hj]
        ring
      · simp [ho]
    rw [hstep, ih', sum_congr rfl fun p _ => ht p, sum_sub_distrib, hz, sum_range_succ]
    ring

/-- C65. Reflecting walls let no tracer through, so in a closed domain the mass of every tracer never
changes. -/
theorem C65_closed {np : ℕ} {sv : TSolver} {P : FlowParams} {n : ℕ} {pm : Fin np → PMesh}
    {bnd : Fin np → List TBEdge} {gid : Fin np → ℕ → ℕ} {owner : ℕ → Fin np} {G : List GEdge}
    {seen : Fin np → GEdge → Bool} (hp : Partitioned np pm gid owner G seen) (hg : 0 < P.g)
    (ht : 0 < P.tinyH) (hb : ∀ p, BndValid (pm p) (bnd p))
    (hwall : ∀ p, ∀ e ∈ bnd p, e.bc = .reflecting ∧ e.cn ^ 2 + e.sn ^ 2 = 1) {j : ℕ} (hj : j < n)
    (dt : ℕ → ℝ) (U : ℕ → ℕ → TCons) (N : ℕ)
    (h : ∀ i < N, TransportStep sv P n pm bnd gid (dt i) (U i) (U (i + 1))) :
    globalTracer pm gid j (U N) = globalTracer pm gid j (U 0) := by
  rw [C65_balance hp hb hj dt U N h]
  have hzero : ∀ i p, outflowRateT sv P n (3 + j) (pm p) (bnd p) (fun c => U i (gid p c)) = 0 := by
    intro i p
    unfold outflowRateT
    apply List.sum_eq_zero
    intro x hx
    rw [List.mem_map] at hx
    obtain ⟨e, he, rfl⟩ := hx
    obtain ⟨hr, hn⟩ := hwall p e he
    have : bndFluxT sv P n (3 + j) (fun c => U i (gid p c)) e = 0 := by
      unfold bndFluxT
      rw [hr]
      simp only
      generalize tracerVelocities P.tinyH (U i (gid p e.cell)) = L
      unfold usedTracerFlux
      by_cases hw : (tracerRight P.tinyH .reflecting L e.sn e.cn).p.h < P.tinyH ∧ L.p.h < P.tinyH
      · rw [if_neg (not_not.mpr hw)]; rfl
      · rw [if_pos hw]
        have hL : 0 < L.p.h := by
          by_contra hc
          apply hw
          have : (tracerRight P.tinyH .reflecting L e.sn e.cn).p.h = L.p.h := rfl
          rw [this]
          constructor <;> linarith
        cases hF : tracerFlux sv P.g n L (tracerRight P.tinyH .reflecting L e.sn e.cn) e.sn e.cn with
        | none => rfl
        | some F =>
          obtain ⟨G', a, hG, h0, -⟩ := tracerFlux_some hF
          obtain ⟨F', a', hF', hm, -⟩ := C38_reflecting L.p hg hL hn
          have hG' : roeFlux P.g L.p (reflectRight L.p e.sn e.cn) e.sn e.cn = some (G', a) := hG
          rw [hF'] at hG'
          simp only [Option.some.injEq, Prod.mk.injEq] at hG'
          change F (3 + j) = 0
          rw [C46_flux (C := L.c j) hF hj rfl rfl, h0, ← hG'.1, hm, mul_zero]
    rw [this]; simp
  rw [sum_eq_zero, sub_zero]
  intro i _
  rw [sum_eq_zero fun p _ => hzero i p, mul_zero]

/-- a step exists in the two-process example -/
theorem exTransport (sv : TSolver) (n : ℕ) (dt : ℝ) (U : ℕ → TCons) (hU : ∀ c, 0 ≤ (U c).q.h) :
    ∃ U', TransportStep sv exParams n exMesh
      (fun p => [⟨0, 1, 0, if p = 0 then -1 else 1, .reflecting⟩]) exGid dt U U' := by
  have hdef : ∀ p : Fin 2, ∃ f, tracerDivergence sv exParams n (exMesh p)
      [⟨0, 1, 0, if p = 0 then -1 else 1, .reflecting⟩] (fun c => U (exGid p c)) = some f := by
    intro p
    apply Option.isSome_iff_exists.mp
    apply C39_tracer_defined _ _ _ _ _ (by norm_num [exParams])
    · intro c; exact hU _
    · intro e he
      rw [List.mem_singleton] at he
      subst he
      trivial
  choose f hf using hdef
  refine ⟨fun c => if c = 0 then ⟨⟨(U 0).q.h + dt * f 0 0 0, 0, 0⟩, fun j => (U 0).hc j + dt * f 0 0 (3 + j)⟩
    else ⟨⟨(U 1).q.h + dt * f 1 0 0, 0, 0⟩, fun j => (U 1).hc j + dt * f 1 0 (3 + j)⟩, ?_⟩
  intro p
  refine ⟨f p, hf p, ?_⟩
  intro c _ ho
  simp only [exMesh, beq_iff_eq] at ho
  subst ho
  fin_cases p
  · exact ⟨rfl, fun j _ => rfl⟩
  · exact ⟨rfl, fun j _ => rfl⟩

example (U : ℕ → TCons) (hU : ∀ c, 0 ≤ (U c).q.h) : ∃ U', TransportStep .roe exParams 2 exMesh
      (fun p => [⟨0, 1, 0, if p = 0 then -1 else 1, .reflecting⟩]) exGid 0.5 U U' ∧
    globalTracer exMesh exGid 1 U' = globalTracer exMesh exGid 1 U := by
  obtain ⟨U', h⟩ := exTransport .roe 2 0.5 U hU
  refine ⟨U', h, ?_⟩
  refine C65_closed (sv := .roe) (P := exParams) (n := 2)
    (bnd := fun p => [⟨0, 1, 0, if p = 0 then -1 else 1, .reflecting⟩]) exPartitioned (by norm_num [exParams])
    (by norm_num [exParams]) ?_ ?_ (by norm_num) (fun _ => 0.5) (fun i => if i = 0 then U else U') 1 ?_
  · intro p e he
    rw [List.mem_singleton] at he
    subst he
    norm_num [exMesh]
  · intro p e he
    rw [List.mem_singleton] at he
    subst he
    refine ⟨rfl, ?_⟩
    by_cases h : p = 0
    · simp only [if_pos h]; norm_num
    · simp only [if_neg h]; norm_num
  · intro i hi
    have : i = 0 := by omega
    subst this
    exact h

theorem exMesh_own : ∀ p, ∀ c < (exMesh p).numCells, ∃ q, ∃ c' < (exMesh q).numCells,
    (exMesh q).owned c' = true ∧ exGid q c' = exGid p c := by
  intro p c hc
  have hc' : c < 2 := hc
  by_cases h : exGid p c = 0
  · exact ⟨0, 0, by norm_num [exMesh], rfl, by rw [h]; rfl⟩
  · refine ⟨1, 0, by norm_num [exMesh], rfl, ?_⟩
    have : exGid p c = 1 := by
      unfold exGid at h ⊢
      split at h <;> rename_i hp
      · rw [if_pos hp]; omega
      · rw [if_neg hp]; omega
    rw [this]; rfl

theorem exMesh_bnd (p : Fin 2) : ∀ e ∈ [(⟨0, 1, 0, if p = 0 then -1 else 1, .reflecting⟩ : TBEdge)],
    e.cell < (exMesh p).numCells := by
  intro e he
  rw [List.mem_singleton] at he
  subst he
  norm_num [exMesh]

/-- water of depths 1 and 2 with concentration 0.3, on two processes -/
example (h : ℕ → ℝ) (hh : h = fun c => if c = 0 then 1 else 2) :
    ∃ U', TransportStep .roe exParams 2 exMesh
      (fun p => [⟨0, 1, 0, if p = 0 then -1 else 1, .reflecting⟩]) exGid 0.5
      (fun c => ⟨⟨h c, 1, 0⟩, fun _ => 0.3 * h c⟩) U' ∧ (U' 1).hc 1 = 0.3 * (U' 1).q.h := by
  have h1 : ∀ c, 1 ≤ h c := by
    intro c
    rw [hh]
    simp only
    split <;> norm_num
  obtain ⟨U', hs⟩ := exTransport .roe 2 0.5 (fun c => ⟨⟨h c, 1, 0⟩, fun _ => 0.3 * h c⟩)
    (fun c => by have := h1 c; simp only; linarith)
  refine ⟨U', hs, ?_⟩
  refine C46_stays (sv := .roe) (P := exParams) (n := 2) (pm := exMesh) (gid := exGid)
    (bnd := fun p => [⟨0, 1, 0, if p = 0 then -1 else 1, .reflecting⟩]) (j := 1) (C := 0.3)
    (by norm_num [exParams]) (by norm_num) exPartitioned.valid exMesh_bnd exMesh_own ?_ (fun _ => 0.5)
    (fun i => if i = 0 then (fun c => ⟨⟨h c, 1, 0⟩, fun _ => 0.3 * h c⟩) else U') 1 ?_ ?_ ?_ 1 0
    (by norm_num [exMesh])
  · intro p e he
    rw [List.mem_singleton] at he
    subst he
    trivial
  · intro i hi p c _
    have : i = 0 := by omega
    subst this
    right
    have := h1 (exGid p c)
    simp only [if_true, exParams]
    norm_num
    linarith
  · intro p c _
    simp
  · intro i hi
    have : i = 0 := by omega
    subst this
    exact hs

end RDy
