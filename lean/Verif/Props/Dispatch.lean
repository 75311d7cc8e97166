import Verif.Model.Dispatch
import Mathlib.Tactic

/-!
C120: the numerical settings of a configuration are those the run uses, or the run is refused.
-/

namespace RDy

/-! ### Specification -/

/-- The run uses what the configuration says. -/
def AsAsked (c : NumCfg) (n : Numerics) : Prop :=
  n.interior = c.base.riemann ∧ (∀ r ∈ n.boundaries, r = c.base.riemann) ∧ n.second = c.base.second ∧ n.wb = c.base.wb ∧ n.friction = c.base.source ∧
    n.temporal = c.temporal ∧ n.tracers = c.base.classes + (if c.base.salinity then 1 else 0) + (if c.base.heat then 1 else 0) ∧
    (c.elevFile = true → n.bed = .cellFile)

/-- The settings that can be made. -/
def Documented (ceedNow : Bool) (c : NumCfg) : Prop :=
  (c.base.riemann = .roe ∨ c.base.riemann = .upwindRoe) ∧ (c.temporal = .euler ∨ c.temporal = .rk4) ∧ (c.base.source = .semiImplicit ∨ c.base.source = .xq2018) ∧
    c.base.heat = false ∧ c.base.classes ≤ 5 ∧ c.spatial = .fv ∧ (c.base.wb = .bs2002 → c.base.classes = 0 ∧ ceedNow = false)

/-- The boundary conditions that exist without tracers, and with tracers. -/
def FlowConds (bnds : List CondType) : Prop := ∀ t ∈ bnds, t = .dirichlet ∨ t = .reflecting ∨ t = .criticalOutflow

/-- See `FlowConds`. -/
def TracerConds (bnds : List CondType) : Prop := ∀ t ∈ bnds, t = .dirichlet ∨ t = .reflecting

/-- Second order goes with flow only and without hydrostatic reconstruction. -/
def OrderFits (c : CeedCfg) : Prop := c.second = true → c.classes = 0 ∧ c.salinity = false ∧ c.heat = false ∧ c.wb ≠ .hr

/-- What the CEED backend can run. -/
def CeedCan (c : NumCfg) (bnds : List CondType) : Prop :=
  OrderFits c.base ∧
    (c.base.classes = 0 ∧ c.base.salinity = false →
      FlowConds bnds ∧ (c.base.riemann = .roe ∨ (bnds = [] ∧ (c.base.wb = .hr ∨ c.base.second = true)))) ∧
    (0 < c.base.classes ∨ c.base.salinity = true → TracerConds bnds ∧ c.base.source = .semiImplicit)

/-- What the PETSc backend can run. -/
def PetscCan (c : NumCfg) (bnds : List CondType) : Prop :=
  OrderFits c.base ∧ c.base.salinity = false ∧ (c.base.classes = 0 → FlowConds bnds ∧ c.base.riemann = .roe) ∧
    (0 < c.base.classes → TracerConds bnds ∧ c.base.source = .semiImplicit)

/-! ### Lemmas -/

private theorem mapM_const (f : CondType → Option Riemann) (p : CondType → Prop) (r : Riemann) (h1 : ∀ t, p t → f t = some r) (h2 : ∀ t, ¬ p t → f t = none)
    (l : List CondType) :
    ((∀ t ∈ l, p t) → l.mapM f = some (List.replicate l.length r)) ∧ ((¬ ∀ t ∈ l, p t) → l.mapM f = none) := by
  induction l with
  | nil => exact ⟨fun _ => rfl, fun h => absurd (fun _ ht => nomatch ht) h⟩
  | cons t l ih =>
    rw [List.mapM_cons]
    by_cases ht : p t
    · rw [h1 t ht]
      constructor
      · intro h
        rw [ih.1 fun s hs => h s (List.mem_cons_of_mem _ hs)]
        rfl
      · intro h
        rw [ih.2 fun h' => h (List.forall_mem_cons.2 ⟨ht, h'⟩)]
        rfl
    · rw [h2 t ht]
      exact ⟨fun h => absurd (h t List.mem_cons_self) ht, fun _ => rfl⟩

private theorem tracers_zero (c : CeedCfg) : c.tracers = 0 ↔ c.classes = 0 ∧ c.salinity = false ∧ c.heat = false := by
  unfold CeedCfg.tracers
  cases c.salinity <;> cases c.heat <;> simp

private theorem readable_iff (b : Bool) (c : NumCfg) : c.readable b = true ↔ Documented b c := by
  rcases c with ⟨⟨cl, sa, he, wb, so, ri, se⟩, te, sp, el⟩
  unfold NumCfg.readable Documented refusesBS2002 maxSedimentClasses
  dsimp only
  cases so <;> cases te <;> cases he <;> cases sp <;> cases ri <;> cases wb <;> cases b <;> simp <;> omega

private theorem combines_iff (c : CeedCfg) : c.combines = true ↔ OrderFits c := by
  rcases c with ⟨cl, sa, he, wb, so, ri, se⟩
  unfold CeedCfg.combines OrderFits
  dsimp only
  cases se <;> cases sa <;> cases he <;> cases wb <;> simp

private theorem ceed_bnds_flow (c : CeedCfg) (h : c.tracers = 0) (hr : c.riemann = .roe) (l : List CondType) :
    (FlowConds l → l.mapM (ceedBoundarySolver c) = some (List.replicate l.length .roe)) ∧ (¬ FlowConds l → l.mapM (ceedBoundarySolver c) = none) := by
  refine mapM_const _ (fun t => t = .dirichlet ∨ t = .reflecting ∨ t = .criticalOutflow) _ ?_ ?_ l
  · intro t ht
    rcases ht with rfl | rfl | rfl <;> simp [ceedBoundarySolver, h, hr]
  · intro t ht
    cases t <;> simp_all [ceedBoundarySolver]

private theorem ceed_bnds_up (c : CeedCfg) (h : c.tracers = 0) (hr : c.riemann ≠ .roe) (l : List CondType) (hl : l ≠ []) :
    l.mapM (ceedBoundarySolver c) = none := by
  refine (mapM_const _ (fun _ => False) .roe (fun _ h => h.elim) ?_ l).2 fun h => ?_
  · intro t _
    rcases c with ⟨cl, sa, he, wb, so, ri, se⟩
    cases t <;> cases ri <;> simp_all [ceedBoundarySolver]
  · cases l with
    | nil => exact hl rfl
    | cons t l => exact h t List.mem_cons_self

private theorem ceed_bnds_tracer (c : CeedCfg) (h : c.tracers ≠ 0) (hr : c.riemann = .roe ∨ c.riemann = .upwindRoe) (l : List CondType) :
    (TracerConds l → l.mapM (ceedBoundarySolver c) = some (List.replicate l.length c.riemann)) ∧ (¬ TracerConds l → l.mapM (ceedBoundarySolver c) = none) := by
  refine mapM_const _ (fun t => t = .dirichlet ∨ t = .reflecting) _ ?_ ?_ l
  · intro t ht
    rcases ht with rfl | rfl <;> rcases hr with hr | hr <;> simp [ceedBoundarySolver, h, hr]
  · intro t ht
    cases t <;> simp_all [ceedBoundarySolver]

private theorem petsc_bnds_flow (c : CeedCfg) (h : c.tracers = 0) (hr : c.riemann = .roe) (l : List CondType) :
    (FlowConds l → l.mapM (petscBoundarySolver c) = some (List.replicate l.length .roe)) ∧ (¬ FlowConds l → l.mapM (petscBoundarySolver c) = none) := by
  have hc := (tracers_zero c).1 h
  have hs : petscSolver c = some .roe := by simp [petscSolver, CeedCfg.comps, h, hc.1, hr]
  refine mapM_const _ (fun t => t = .dirichlet ∨ t = .reflecting ∨ t = .criticalOutflow) _ ?_ ?_ l
  · intro t ht
    rcases ht with rfl | rfl | rfl <;> simp [petscBoundarySolver, hs, hc.1]
  · intro t ht
    cases t <;> simp_all [petscBoundarySolver]

private theorem petscSolver_tracer (c : CeedCfg) (h : 0 < c.classes) (hs : c.salinity = false) (hh : c.heat = false) (hr : c.riemann = .roe ∨ c.riemann = .upwindRoe) :
    petscSolver c = some c.riemann := by
  rcases hr with hr | hr <;> simp [petscSolver, CeedCfg.comps, CeedCfg.tracers, hs, hh, h, hr]

private theorem petsc_bnds_tracer (c : CeedCfg) (h : 0 < c.classes) (hs : c.salinity = false) (hh : c.heat = false) (hr : c.riemann = .roe ∨ c.riemann = .upwindRoe)
    (l : List CondType) :
    (TracerConds l → l.mapM (petscBoundarySolver c) = some (List.replicate l.length c.riemann)) ∧ (¬ TracerConds l → l.mapM (petscBoundarySolver c) = none) := by
  have hs := petscSolver_tracer c h hs hh hr
  refine mapM_const _ (fun t => t = .dirichlet ∨ t = .reflecting) _ ?_ ?_ l
  · intro t ht
    rcases ht with rfl | rfl <;> simp [petscBoundarySolver, hs]
  · intro t ht
    cases t <;> simp_all [petscBoundarySolver]

/-- What the CEED backend computes with. -/
def ceedNumerics (c : NumCfg) (bnds : List CondType) : Numerics :=
  ⟨if c.base.wb = .hr ∨ c.base.second = true then .roe else c.base.riemann, List.replicate bnds.length c.base.riemann, c.base.second,
    ceedWb c.base, c.base.source, ceedBed c, c.base.tracers, c.temporal⟩

/-- What the PETSc backend computes with. -/
def petscNumerics (c : NumCfg) (bnds : List CondType) : Numerics :=
  ⟨c.base.riemann, List.replicate bnds.length c.base.riemann, c.base.second, implemented c.base.wb false, c.base.source, petscBed c, c.base.classes, c.temporal⟩

private theorem time_ok {t : Temporal} (h : t = .euler ∨ t = .rk4) : timeMethod t = some t := by
  rcases h with rfl | rfl <;> rfl

private theorem start_ceed (b : Bool) (c : NumCfg) (bnds : List CondType) :
    (¬ Documented b c → startCeed b c bnds = .atReading) ∧ (Documented b c → ¬ CeedCan c bnds → startCeed b c bnds = .atSetup) ∧
      (Documented b c → CeedCan c bnds → startCeed b c bnds = .runs (ceedNumerics c bnds)) := by
  unfold startCeed
  refine ⟨fun h => ?_, fun hd hc => ?_, fun hd hc => ?_⟩
  · rw [if_pos ((Bool.not_eq_true _).mp fun h' => h ((readable_iff b c).1 h'))]
  · rw [if_neg (by rw [(readable_iff b c).2 hd]; simp)]
    by_cases ho : OrderFits c.base
    · rw [if_neg (by rw [(combines_iff c.base).2 ho]; simp)]
      by_cases ht : c.base.tracers = 0
      · have hz := (tracers_zero c.base).1 ht
        by_cases hr : c.base.riemann = .roe
        · have hf : ¬ FlowConds bnds := fun hf => hc ⟨ho, fun _ => ⟨hf, Or.inl hr⟩, fun h => by
            rcases h with h | h
            · omega
            · rw [hz.2.1] at h; cases h⟩
          rw [(ceed_bnds_flow c.base ht hr bnds).2 hf]
          split <;> simp_all
        · by_cases hb : bnds = []
          · have hs : ¬ (c.base.wb = .hr ∨ c.base.second = true) := fun hs => hc ⟨ho, fun _ => ⟨fun _ h => absurd (hb ▸ h) List.not_mem_nil, Or.inr ⟨hb, hs⟩⟩, fun h => by
              rcases h with h | h
              · omega
              · rw [hz.2.1] at h; cases h⟩
            have hi : ceedInteriorSolver c.base = none := by
              unfold ceedInteriorSolver
              rw [if_neg fun h => hs (Or.inl h), if_neg fun h => hs (Or.inr h), if_pos ht]
              cases hri : c.base.riemann <;> simp_all
            rw [hi]
          · rw [ceed_bnds_up c.base ht hr bnds hb]
            split <;> simp_all
      · by_cases hf : TracerConds bnds
        · have hq : c.base.source = .xq2018 := by
            rcases hd.2.2.1 with hq | hq
            · exact absurd ⟨ho, fun h => absurd ((tracers_zero c.base).2 ⟨h.1, h.2, hd.2.2.2.1⟩) ht, fun _ => ⟨hf, hq⟩⟩ hc
            · exact hq
          have : ceedFriction c.base = none := by
            unfold ceedFriction
            rw [if_neg ht, hq]
          rw [this]
          split <;> simp_all
        · rw [(ceed_bnds_tracer c.base ht hd.1 bnds).2 hf]
          split <;> simp_all
    · rw [if_pos ((Bool.not_eq_true _).mp fun h' => ho ((combines_iff c.base).1 h'))]
  · rw [if_neg (by rw [(readable_iff b c).2 hd]; simp), if_neg (by rw [(combines_iff c.base).2 hc.1]; simp), time_ok hd.2.1]
    have hi : ∀ (r : Riemann), c.base.riemann = r → (c.base.tracers = 0 → r = .roe ∨ c.base.wb = .hr ∨ c.base.second = true) → (r = .roe ∨ r = .upwindRoe) →
        ceedInteriorSolver c.base = some (if c.base.wb = .hr ∨ c.base.second = true then .roe else c.base.riemann) := by
      intro r hr h1 h2
      unfold ceedInteriorSolver
      by_cases hw : c.base.wb = .hr
      · rw [if_pos hw, if_pos (Or.inl hw)]
      · by_cases hs : c.base.second = true
        · rw [if_neg hw, if_pos hs, if_pos (Or.inr hs)]
        · rw [if_neg hw, if_neg hs, if_neg (show ¬ (c.base.wb = .hr ∨ c.base.second = true) from not_or.2 ⟨hw, hs⟩)]
          by_cases ht : c.base.tracers = 0
          · rw [if_pos ht, hr]
            have : r = .roe := by tauto
            rw [this]
          · rw [if_neg ht, hr]
            rcases h2 with rfl | rfl <;> rfl
    by_cases ht : c.base.tracers = 0
    · have hz := (tracers_zero c.base).1 ht
      have hq := hc.2.1 ⟨hz.1, hz.2.1⟩
      have hf : ceedFriction c.base = some c.base.source := by
        unfold ceedFriction
        rw [if_pos ht]
        cases c.base.source <;> rfl
      have hb : bnds.mapM (ceedBoundarySolver c.base) = some (List.replicate bnds.length c.base.riemann) := by
        rcases hq.2 with hr | hr
        · rw [hr]
          exact (ceed_bnds_flow c.base ht hr bnds).1 hq.1
        · rw [hr.1]; rfl
      rw [hi _ rfl (fun _ => by tauto) hd.1, hf, hb]
      rfl
    · have hq := hc.2.2 (by
        by_contra hn
        refine ht ((tracers_zero c.base).2 ⟨by omega, ?_, hd.2.2.2.1⟩)
        cases hs : c.base.salinity <;> simp_all)
      have hf : ceedFriction c.base = some c.base.source := by
        unfold ceedFriction
        rw [if_neg ht, hq.2]
      rw [hi _ rfl (fun h => absurd h ht) hd.1, hf, (ceed_bnds_tracer c.base ht hd.1 bnds).1 hq.1]
      rfl

/-- The settings that the PETSc backend refuses when the operators are created; the rest of what it cannot run is refused by the first evaluation. -/
def PetscSetupRefuses (c : NumCfg) : Prop := ¬ OrderFits c.base ∨ (0 < c.base.classes ∧ c.base.source = .xq2018)

private theorem start_petsc (b : Bool) (c : NumCfg) (bnds : List CondType) :
    (¬ Documented b c → startPetsc b c bnds = .atReading) ∧ (Documented b c → PetscSetupRefuses c → startPetsc b c bnds = .atSetup) ∧
      (Documented b c → ¬ PetscSetupRefuses c → ¬ PetscCan c bnds → startPetsc b c bnds = .atEvaluation) ∧
      (Documented b c → PetscCan c bnds → startPetsc b c bnds = .runs (petscNumerics c bnds)) := by
  unfold startPetsc
  have hfr : Documented b c → ¬ (0 < c.base.classes ∧ c.base.source = .xq2018) → petscFriction c.base = some c.base.source := by
    intro hd hn
    unfold petscFriction
    by_cases hk : c.base.classes > 0
    · rw [if_pos hk]
      rcases hd.2.2.1 with hq | hq
      · rw [hq]
      · exact absurd ⟨hk, hq⟩ hn
    · rw [if_neg hk]
      rcases hd.2.2.1 with hq | hq <;> rw [hq]
  refine ⟨fun h => ?_, fun hd hc => ?_, fun hd hn hc => ?_, fun hd hc => ?_⟩
  · rw [if_pos ((Bool.not_eq_true _).mp fun h' => h ((readable_iff b c).1 h'))]
  · rw [if_neg (by rw [(readable_iff b c).2 hd]; simp)]
    by_cases ho : OrderFits c.base
    · rw [if_neg (by rw [(combines_iff c.base).2 ho]; simp)]
      rcases hc with hc | hc
      · exact absurd ho hc
      · have : petscFriction c.base = none := by
          unfold petscFriction
          rw [if_pos hc.1, hc.2]
        rw [this]
    · rw [if_pos ((Bool.not_eq_true _).mp fun h' => ho ((combines_iff c.base).1 h'))]
  · have ho : OrderFits c.base := not_not.1 fun h => hn (Or.inl h)
    rw [if_neg (by rw [(readable_iff b c).2 hd]; simp), if_neg (by rw [(combines_iff c.base).2 ho]; simp), time_ok hd.2.1, hfr hd fun h => hn (Or.inr h)]
    dsimp only
    cases hs : c.base.salinity with
    | true =>
      have : petscSolver c.base = none := by
        unfold petscSolver
        rw [if_pos]
        simp [CeedCfg.comps, CeedCfg.tracers, hs, hd.2.2.2.1]
      rw [this]
    | false =>
      by_cases hk : 0 < c.base.classes
      · have hq : c.base.source = .semiImplicit := by
          rcases hd.2.2.1 with hq | hq
          · exact hq
          · exact absurd (Or.inr ⟨hk, hq⟩) hn
        have hf : ¬ TracerConds bnds := fun hf => hc ⟨ho, hs, fun h => by omega, fun _ => ⟨hf, hq⟩⟩
        rw [(petsc_bnds_tracer c.base hk hs hd.2.2.2.1 hd.1 bnds).2 hf]
        split <;> simp_all
      · have hz : c.base.tracers = 0 := (tracers_zero c.base).2 ⟨by omega, hs, hd.2.2.2.1⟩
        by_cases hr : c.base.riemann = .roe
        · have hf : ¬ FlowConds bnds := fun hf => hc ⟨ho, hs, fun _ => ⟨hf, hr⟩, fun h => absurd h hk⟩
          rw [(petsc_bnds_flow c.base hz hr bnds).2 hf]
          split <;> simp_all
        · have : petscSolver c.base = none := by
            unfold petscSolver
            have hk0 : c.base.classes = 0 := by omega
            rw [if_neg (by simp [CeedCfg.comps, hz, hk0]), if_neg hk]
            rcases hd.1 with h | h
            · exact absurd h hr
            · rw [h]
          rw [this]
  · have hn : ¬ (0 < c.base.classes ∧ c.base.source = .xq2018) := fun h => by
      have := (hc.2.2.2 h.1).2
      rw [h.2] at this
      cases this
    rw [if_neg (by rw [(readable_iff b c).2 hd]; simp), if_neg (by rw [(combines_iff c.base).2 hc.1]; simp), time_ok hd.2.1, hfr hd hn]
    dsimp only
    by_cases hk : 0 < c.base.classes
    · rw [petscSolver_tracer c.base hk hc.2.1 hd.2.2.2.1 hd.1, (petsc_bnds_tracer c.base hk hc.2.1 hd.2.2.2.1 hd.1 bnds).1 (hc.2.2.2 hk).1]
      rfl
    · have hk0 : c.base.classes = 0 := by omega
      have hz : c.base.tracers = 0 := (tracers_zero c.base).2 ⟨hk0, hc.2.1, hd.2.2.2.1⟩
      have hq := hc.2.2.1 hk0
      have : petscSolver c.base = some .roe := by simp [petscSolver, CeedCfg.comps, hz, hk0, hq.2]
      rw [this, (petsc_bnds_flow c.base hz hq.2 bnds).1 hq.1]
      unfold petscNumerics
      rw [hq.2]

/-! ### C120 -/

/-- C120: with CEED a configuration runs if and only if its settings can be made and the backend can run them; everything refused is refused before the first evaluation: settings that
cannot be made when the file is read, others when the operators are created. -/
theorem C120_ceed_accepts (ceedNow : Bool) (c : NumCfg) (bnds : List CondType) :
    ((∃ n, startCeed ceedNow c bnds = .runs n) ↔ Documented ceedNow c ∧ CeedCan c bnds) ∧
      (startCeed ceedNow c bnds = .atReading ↔ ¬ Documented ceedNow c) ∧
      (startCeed ceedNow c bnds = .atSetup ↔ Documented ceedNow c ∧ ¬ CeedCan c bnds) ∧ startCeed ceedNow c bnds ≠ .atEvaluation := by
  obtain ⟨h1, h2, h3⟩ := start_ceed ceedNow c bnds
  by_cases hd : Documented ceedNow c
  · by_cases hc : CeedCan c bnds
    · rw [h3 hd hc]
      exact ⟨⟨fun _ => ⟨hd, hc⟩, fun _ => ⟨_, rfl⟩⟩, ⟨fun h => (nomatch h), fun h => absurd hd h⟩, ⟨fun h => (nomatch h), fun h => absurd hc h.2⟩, fun h => nomatch h⟩
    · rw [h2 hd hc]
      exact ⟨⟨fun h => (nomatch h.choose_spec), fun h => absurd h.2 hc⟩, ⟨fun h => (nomatch h), fun h => absurd hd h⟩, ⟨fun _ => ⟨hd, hc⟩, fun _ => rfl⟩, fun h => nomatch h⟩
  · rw [h1 hd]
    exact ⟨⟨fun h => (nomatch h.choose_spec), fun h => absurd h.1 hd⟩, ⟨fun _ => hd, fun _ => rfl⟩, ⟨fun h => (nomatch h), fun h => absurd h.1 hd⟩, fun h => nomatch h⟩

/-- C120: the same for the PETSc backend, which finds out only at the first evaluation, after the whole setup, about salinity, about a solver it does not have, and about boundary
conditions it does not have. -/
theorem C120_petsc_accepts (ceedNow : Bool) (c : NumCfg) (bnds : List CondType) :
    ((∃ n, startPetsc ceedNow c bnds = .runs n) ↔ Documented ceedNow c ∧ PetscCan c bnds) ∧
      (startPetsc ceedNow c bnds = .atReading ↔ ¬ Documented ceedNow c) ∧
      (startPetsc ceedNow c bnds = .atSetup ↔ Documented ceedNow c ∧ PetscSetupRefuses c) ∧
      (startPetsc ceedNow c bnds = .atEvaluation ↔ Documented ceedNow c ∧ ¬ PetscSetupRefuses c ∧ ¬ PetscCan c bnds) := by
  obtain ⟨h1, h2, h3, h4⟩ := start_petsc ceedNow c bnds
  have hx : PetscCan c bnds → ¬ PetscSetupRefuses c := by
    rintro hc (h | h)
    · exact h hc.1
    · have := (hc.2.2.2 h.1).2
      rw [h.2] at this
      cases this
  by_cases hd : Documented ceedNow c
  · by_cases hc : PetscCan c bnds
    · rw [h4 hd hc]
      exact ⟨⟨fun _ => ⟨hd, hc⟩, fun _ => ⟨_, rfl⟩⟩, ⟨fun h => (nomatch h), fun h => absurd hd h⟩, ⟨fun h => (nomatch h), fun h => absurd h.2 (hx hc)⟩,
        ⟨fun h => (nomatch h), fun h => absurd hc h.2.2⟩⟩
    · by_cases hr : PetscSetupRefuses c
      · rw [h2 hd hr]
        exact ⟨⟨fun h => (nomatch h.choose_spec), fun h => absurd h.2 hc⟩, ⟨fun h => (nomatch h), fun h => absurd hd h⟩, ⟨fun _ => ⟨hd, hr⟩, fun _ => rfl⟩,
          ⟨fun h => (nomatch h), fun h => absurd hr h.2.1⟩⟩
      · rw [h3 hd hr hc]
        exact ⟨⟨fun h => (nomatch h.choose_spec), fun h => absurd h.2 hc⟩, ⟨fun h => (nomatch h), fun h => absurd hd h⟩, ⟨fun h => (nomatch h), fun h => absurd h.2 hr⟩,
          ⟨fun _ => ⟨hd, hr, hc⟩, fun _ => rfl⟩⟩
  · rw [h1 hd]
    exact ⟨⟨fun h => (nomatch h.choose_spec), fun h => absurd h.1 hd⟩, ⟨fun _ => hd, fun _ => rfl⟩, ⟨fun h => (nomatch h), fun h => absurd h.1 hd⟩,
      ⟨fun h => (nomatch h), fun h => absurd h.1 hd⟩⟩

/-- A run with tracers, hydrostatic reconstruction, upwinding: CEED does not upwind interior edges. -/
def UpwindHR (c : CeedCfg) : Prop := c.riemann = .upwindRoe ∧ c.wb = .hr

private theorem ceed_runs {ceedNow : Bool} {c : NumCfg} {bnds : List CondType} {n : Numerics} (h : startCeed ceedNow c bnds = .runs n) :
    Documented ceedNow c ∧ CeedCan c bnds ∧ n = ceedNumerics c bnds := by
  have hr := (C120_ceed_accepts ceedNow c bnds).1.1 ⟨n, h⟩
  rw [(start_ceed ceedNow c bnds).2.2 hr.1 hr.2] at h
  exact ⟨hr.1, hr.2, (Start.runs.inj h).symm⟩

private theorem petsc_runs {ceedNow : Bool} {c : NumCfg} {bnds : List CondType} {n : Numerics} (h : startPetsc ceedNow c bnds = .runs n) :
    Documented ceedNow c ∧ PetscCan c bnds ∧ n = petscNumerics c bnds := by
  have hr := (C120_petsc_accepts ceedNow c bnds).1.1 ⟨n, h⟩
  rw [(start_petsc ceedNow c bnds).2.2.2 hr.1 hr.2] at h
  exact ⟨hr.1, hr.2, (Start.runs.inj h).symm⟩

/-- C120 (in part): what runs with CEED is what was asked for. Missing: upwinding with hydrostatic reconstruction (`C120_upwind_violated`), `bradford_sanders_2002` with salinity
(`C120_salinity_bs2002_violated`), elevations from a file without hydrostatic reconstruction (`C120_elevation_violated`), and a process without boundaries where upwinding is asked for
without tracers. -/
theorem C120_ceed_partial (ceedNow : Bool) (c : NumCfg) (bnds : List CondType) (n : Numerics) (h : startCeed ceedNow c bnds = .runs n) (hb : bnds ≠ [])
    (hu : ¬ UpwindHR c.base) (hs : c.base.wb = .bs2002 → c.base.salinity = false) (he : c.elevFile = true → c.base.wb = .hr) : AsAsked c n := by
  obtain ⟨hd, hc, rfl⟩ := ceed_runs h
  have hz := tracers_zero c.base
  have hri : (if c.base.wb = .hr ∨ c.base.second = true then Riemann.roe else c.base.riemann) = c.base.riemann := by
    by_cases hr : c.base.riemann = .roe
    · rw [hr, ite_self]
    · have hup : c.base.riemann = .upwindRoe := hd.1.resolve_left hr
      rw [if_neg]
      rintro (hw | h2)
      · exact hu ⟨hup, hw⟩
      · have ho := hc.1 h2
        rcases (hc.2.1 ⟨ho.1, ho.2.1⟩).2 with h' | h'
        · exact hr h'
        · exact hb h'.1
  refine ⟨hri, fun r hr => List.eq_of_mem_replicate hr, rfl, ?_, rfl, rfl, rfl, fun he' => ?_⟩
  · change ceedWb c.base = c.base.wb
    unfold ceedWb
    cases hw : c.base.wb with
    | none => rfl
    | hr => rfl
    | bs2002 => exact if_pos (hz.2 ⟨(hd.2.2.2.2.2.2 hw).1, hs hw, hd.2.2.2.1⟩)
  · change ceedBed c = _
    unfold ceedBed
    rw [if_pos (he he'), if_pos he']

/-- C120 (in part): what runs with the PETSc backend is what was asked for. Missing: `bradford_sanders_2002`, which is not there (`C69`), elevations from a file with sediment
(`C120_sediment_elevation_violated`) or without hydrostatic reconstruction (`C120_elevation_violated`). -/
theorem C120_petsc_partial (ceedNow : Bool) (c : NumCfg) (bnds : List CondType) (n : Numerics) (h : startPetsc ceedNow c bnds = .runs n) (hw : c.base.wb ≠ .bs2002)
    (he : c.elevFile = true → c.base.wb = .hr ∧ c.base.classes = 0) : AsAsked c n := by
  obtain ⟨hd, hc, rfl⟩ := petsc_runs h
  refine ⟨rfl, fun r hr => List.eq_of_mem_replicate hr, rfl, ?_, rfl, rfl, ?_, fun he' => ?_⟩
  · change implemented c.base.wb false = _
    unfold implemented
    rw [if_neg (by simp), if_neg hw]
  · change c.base.classes = _
    rw [hc.2.1, hd.2.2.2.1]
    simp
  · change petscBed c = _
    unfold petscBed
    rw [if_pos (he he').1, if_neg (by rw [(he he').2]; simp), if_pos he']

/-- C120 (in part): if a configuration runs with both backends, both compute with the same numerics. Missing: `bradford_sanders_2002`, upwinding with hydrostatic reconstruction, and
elevations from a file with sediment and hydrostatic reconstruction. -/
theorem C120_backends_partial (ceedNow : Bool) (c : NumCfg) (bnds : List CondType) (n m : Numerics) (h : startCeed ceedNow c bnds = .runs n)
    (h' : startPetsc ceedNow c bnds = .runs m) (hw : c.base.wb ≠ .bs2002) (hu : ¬ UpwindHR c.base)
    (he : c.elevFile = true → c.base.wb = .hr → c.base.classes = 0) : n = m := by
  obtain ⟨hd, hc, rfl⟩ := ceed_runs h
  obtain ⟨-, hp, rfl⟩ := petsc_runs h'
  have hri : (if c.base.wb = .hr ∨ c.base.second = true then Riemann.roe else c.base.riemann) = c.base.riemann := by
    by_cases hr : c.base.riemann = .roe
    · rw [hr, ite_self]
    · rw [if_neg]
      rintro (hw | h2)
      · exact hu ⟨hd.1.resolve_left hr, hw⟩
      · exact hr (hp.2.2.1 (hp.1 h2).1).2
  have hwb : ceedWb c.base = implemented c.base.wb false := by
    unfold ceedWb implemented
    cases hw' : c.base.wb <;> simp_all
  have hbed : ceedBed c = petscBed c := by
    unfold ceedBed petscBed
    by_cases hh : c.base.wb = .hr
    · rw [if_pos hh, if_pos hh]
      by_cases hk : c.base.classes > 0
      · rw [if_pos hk, if_neg fun h => by have := he h hh; omega]
      · rw [if_neg hk]
    · rw [if_neg hh, if_neg hh]
  have htr : c.base.tracers = c.base.classes := by
    unfold CeedCfg.tracers
    rw [hp.2.1, hd.2.2.2.1]
    simp
  unfold ceedNumerics petscNumerics
  rw [hri, hwb, hbed, htr]

/-- C120: with the PETSc backend salinity never runs: setup succeeds, and the first evaluation reports an error. -/
theorem C120_petsc_salinity (ceedNow : Bool) (c : NumCfg) (bnds : List CondType) (hd : Documented ceedNow c) (hn : ¬ PetscSetupRefuses c) (hs : c.base.salinity = true) :
    startPetsc ceedNow c bnds = .atEvaluation :=
  (C120_petsc_accepts ceedNow c bnds).2.2.2.2 ⟨hd, hn, fun h => absurd (hs.symm.trans h.2.1) (by simp)⟩

/-- C120: the choices agree with the kernels of `CeedFields.lean` (which decide the fields of the operators): a kernel is found there exactly when a solver is found here. -/
theorem C120_kernels (c : CeedCfg) (ho : c.combines = true) (hs : c.source ≠ .arkImex) (hh : c.riemann ≠ .hllc) :
    ((c.qf .interior).isSome ↔ (ceedInteriorSolver c).isSome) ∧ (∀ t, (c.qf (.boundary t)).isSome ↔ (ceedBoundarySolver c t).isSome) ∧
      ((c.qf .source).isSome ↔ (ceedFriction c).isSome) := by
  have hz := tracers_zero c
  have ho := (combines_iff c).1 ho
  refine ⟨?_, fun t => ?_, ?_⟩
  · unfold CeedCfg.qf ceedInteriorSolver
    dsimp only
    by_cases h2 : c.second = true
    · have h := ho h2
      rw [if_pos h2, if_pos ⟨hz.2 ⟨h.1, h.2.1, h.2.2.1⟩, h.2.2.2⟩, if_neg h.2.2.2, if_pos h2]
      simp
    · rw [if_neg h2]
      by_cases hw : c.wb = .hr
      · rw [if_pos hw, if_pos hw]
        split <;> simp
      · rw [if_neg hw, if_neg hw, if_neg h2]
        split
        · cases hr : c.riemann <;> simp
        · cases hr : c.riemann <;> simp_all
  · unfold CeedCfg.qf ceedBoundarySolver
    cases t <;> dsimp only <;> by_cases ht : c.tracers = 0 <;> cases hr : c.riemann <;> simp_all
  · unfold CeedCfg.qf ceedFriction
    dsimp only
    by_cases ht : c.tracers = 0
    · rw [if_pos ht, if_pos ht]
      by_cases hw : c.wb = .hr
      · rw [if_pos hw]; cases c.source <;> simp
      · rw [if_neg hw]; cases c.source <;> simp
    · rw [if_neg ht, if_neg ht]
      by_cases hw : c.wb = .hr <;> cases hq : c.source <;> simp_all

/-! ### What is not as asked -/

/-- With CEED, hydrostatic reconstruction and sediment, `upwind_roe` is accepted and interior edges are treated by the other solver (boundaries by the one asked for). The PETSc
backend uses the one asked for everywhere. -/
theorem C120_upwind_violated (ceedNow : Bool) (c : NumCfg) (bnds : List CondType) (n : Numerics) (hu : UpwindHR c.base) (h : startCeed ceedNow c bnds = .runs n) :
    n.interior = .roe ∧ (∀ r ∈ n.boundaries, r = .upwindRoe) ∧ ¬ AsAsked c n ∧ ∀ m, startPetsc ceedNow c bnds = .runs m → m.interior = .upwindRoe := by
  obtain ⟨hd, hc, rfl⟩ := ceed_runs h
  have h1 : (ceedNumerics c bnds).interior = .roe := if_pos (Or.inl hu.2)
  refine ⟨h1, fun r hr => (List.eq_of_mem_replicate hr).trans hu.1, fun ha => ?_, fun m hm => ?_⟩
  · have := ha.1
    rw [h1, hu.1] at this
    cases this
  · obtain ⟨-, -, rfl⟩ := petsc_runs hm
    exact hu.1

/-- With CEED, `bradford_sanders_2002` is accepted with salinity and has no effect. -/
theorem C120_salinity_bs2002_violated (ceedNow : Bool) (c : NumCfg) (bnds : List CondType) (n : Numerics) (hw : c.base.wb = .bs2002) (hs : c.base.salinity = true)
    (h : startCeed ceedNow c bnds = .runs n) : n.wb = .none ∧ ¬ AsAsked c n := by
  obtain ⟨hd, hc, rfl⟩ := ceed_runs h
  have h1 : (ceedNumerics c bnds).wb = .none := by
    change ceedWb c.base = _
    unfold ceedWb
    rw [hw]
    exact if_neg fun h => by
      have := ((tracers_zero c.base).1 h).2.1
      rw [hs] at this
      cases this
  refine ⟨h1, fun ha => ?_⟩
  have := ha.2.2.2.1
  rw [h1, hw] at this
  cases this

/-- Without hydrostatic reconstruction, `grid.cell_elevation.file` is read and has no effect on the right-hand side, with both backends. -/
theorem C120_elevation_violated (ceedNow : Bool) (c : NumCfg) (bnds : List CondType) (n : Numerics) (he : c.elevFile = true) (hw : c.base.wb ≠ .hr)
    (h : startCeed ceedNow c bnds = .runs n ∨ startPetsc ceedNow c bnds = .runs n) : n.bed = .slopes ∧ ¬ AsAsked c n := by
  have hb : n.bed = .slopes := by
    rcases h with h | h
    · obtain ⟨-, -, rfl⟩ := ceed_runs h
      exact if_neg hw
    · obtain ⟨-, -, rfl⟩ := petsc_runs h
      exact if_neg hw
  refine ⟨hb, fun ha => ?_⟩
  have := ha.2.2.2.2.2.2.2 he
  rw [hb] at this
  cases this

/-- With hydrostatic reconstruction and sediment, the PETSc backend does not use the elevations of `grid.cell_elevation.file` either; CEED does. -/
theorem C120_sediment_elevation_violated (ceedNow : Bool) (c : NumCfg) (bnds : List CondType) (n : Numerics) (he : c.elevFile = true) (hw : c.base.wb = .hr)
    (hk : 0 < c.base.classes) (h : startPetsc ceedNow c bnds = .runs n) :
    n.bed = .vertexMeans ∧ ¬ AsAsked c n ∧ ∀ m, startCeed ceedNow c bnds = .runs m → m.bed = .cellFile := by
  obtain ⟨-, -, rfl⟩ := petsc_runs h
  have hb : (petscNumerics c bnds).bed = .vertexMeans := by
    change petscBed c = _
    unfold petscBed
    rw [if_pos hw, if_pos hk]
  refine ⟨hb, fun ha => ?_, fun m hm => ?_⟩
  · have := ha.2.2.2.2.2.2.2 he
    rw [hb] at this
    cases this
  · obtain ⟨-, -, rfl⟩ := ceed_runs hm
    change ceedBed c = _
    unfold ceedBed
    rw [if_pos hw, if_pos he]

/-- With CEED, second order and no tracers, `upwind_roe` is refused on a process with boundaries and accepted on one without, where the other solver runs. -/
theorem C120_no_boundary_violated (ceedNow : Bool) (c : NumCfg) (n : Numerics) (h : startCeed ceedNow c [] = .runs n) (hr : c.base.riemann = .upwindRoe)
    (h0 : c.base.classes = 0 ∧ c.base.salinity = false) : n.interior = .roe ∧ ∀ (t : CondType) (l : List CondType), startCeed ceedNow c (t :: l) = .atSetup := by
  obtain ⟨hd, hc, rfl⟩ := ceed_runs h
  have hq := (hc.2.1 h0).2
  rw [hr] at hq
  constructor
  · rcases hq with hq | hq
    · cases hq
    · exact if_pos hq.2
  · intro t l
    refine (C120_ceed_accepts ceedNow c (t :: l)).2.2.1.2 ⟨hd, fun hc' => ?_⟩
    have := (hc'.2.1 h0).2
    rw [hr] at this
    rcases this with h | h
    · cases h
    · cases h.1

/-! ### Examples -/

/-- Flow only, defaults, as in most input files. -/
def plainCfg : NumCfg := ⟨⟨0, false, false, .none, .semiImplicit, .roe, false⟩, .euler, .fv, false⟩

/-- Sediment with hydrostatic reconstruction, upwinding and elevations from a file. -/
def hrCfg : NumCfg := ⟨⟨2, false, false, .hr, .semiImplicit, .upwindRoe, false⟩, .euler, .fv, true⟩

example : startCeed false plainCfg [.reflecting, .criticalOutflow] = .runs ⟨.roe, [.roe, .roe], false, .none, .semiImplicit, .slopes, 0, .euler⟩ ∧
    startPetsc false plainCfg [.reflecting, .criticalOutflow] = .runs ⟨.roe, [.roe, .roe], false, .none, .semiImplicit, .slopes, 0, .euler⟩ := by decide

example : startCeed false hrCfg [.reflecting] = .runs ⟨.roe, [.upwindRoe], false, .hr, .semiImplicit, .cellFile, 2, .euler⟩ ∧
    startPetsc false hrCfg [.reflecting] = .runs ⟨.upwindRoe, [.upwindRoe], false, .hr, .semiImplicit, .vertexMeans, 2, .euler⟩ := by decide

example : startCeed false { plainCfg with base := { plainCfg.base with salinity := true, wb := .bs2002 } } [.reflecting] =
    .runs ⟨.roe, [.roe], false, .none, .semiImplicit, .slopes, 1, .euler⟩ := by decide

example : startPetsc false { plainCfg with base := { plainCfg.base with salinity := true } } [.reflecting] = .atEvaluation ∧
    startPetsc false { plainCfg with base := { plainCfg.base with riemann := .upwindRoe } } [] = .atEvaluation ∧
    startPetsc false { plainCfg with base := { plainCfg.base with classes := 1, source := .xq2018 } } [] = .atSetup ∧
    startPetsc false { plainCfg with temporal := .beuler } [] = .atReading := by decide

example : startCeed false { plainCfg with base := { plainCfg.base with second := true, riemann := .upwindRoe } } [] =
    .runs ⟨.roe, [], true, .none, .semiImplicit, .slopes, 0, .euler⟩ := by decide

example : startCeed false { plainCfg with elevFile := true } [.dirichlet] = .runs ⟨.roe, [.roe], false, .none, .semiImplicit, .slopes, 0, .euler⟩ := by decide

example : plainCfg.base.combines = true ∧ plainCfg.base.source ≠ .arkImex ∧ plainCfg.base.riemann ≠ .hllc := by decide

end RDy
