import Verif.Model.Monitors
import Mathlib.Tactic

/-!
# C93: everything that is requested is written throughout the run

The specification: for every step that the integrator reports, each of the things that the
configuration asks for — output of the fields, messages about it, checkpoints, time series — is looked
after exactly once, and nothing else is.
-/

namespace RDy

/-- What is written during a run. -/
inductive Writer
  | fields | message | checkpoint | series
  deriving DecidableEq

/-- What the configuration asks for. -/
def Wanted (c : MonCfg) : Writer → Prop
  | .fields => c.format ≠ .none
  | .message => c.detail = true ∧ (c.format = .binary ∨ c.format = .cgns)
  | .checkpoint => c.ckInterval ≠ 0
  | .series => 0 < c.boundaryFluxes ∨ 0 < c.observations

/-- What a monitor writes. -/
def Mon.writes : Mon → Writer
  | .option | .xdmf | .solution _ => .fields
  | .log => .message
  | .checkpoint => .checkpoint
  | .series => .series

/-- How often something is written by the given monitors. -/
def written (w : Writer) (ms : List Mon) : ℕ := (ms.filter fun m => m.writes = w).length

/-- The monitors write `w` once if it is wanted, and not at all otherwise. -/
def Right (c : MonCfg) (w : Writer) (ms : List Mon) : Prop :=
  (Wanted c w → written w ms = 1) ∧ (¬ Wanted c w → written w ms = 0)

/-- A configuration as it is accepted: output is enabled iff there is a format
(`yaml_input.c:1089-1097`), `-ts_monitor_solution` is there for CGNS only (the user has not given it),
and messages are not asked for where output is by time alone (see `C93_message_violated`). -/
structure MonCfg.Ok (c : MonCfg) : Prop where
  enable : c.enable = true ↔ c.format ≠ .none
  option : c.option = true ↔ c.format = .cgns
  interval : c.detail = true → c.format = .binary ∨ c.format = .cgns → c.outputInterval ≠ 0

/-- The steps reported by the solves of a run that starts at step `k`. -/
def reported : ℕ → List ℕ → List ℕ
  | _, [] => []
  | k, n :: ns => (List.range (n + 1)).map (k + ·) ++ reported (k + n) ns

/-! ## What is registered -/

/-- Monitors for output. -/
def outMons (c : MonCfg) (a : Option ℕ) : List Mon :=
  match c.format with
  | .none => []
  | .xdmf => [.xdmf]
  | .cgns => if c.detail = true then [.log] else []
  | .binary => (if c.detail = true then [.log] else []) ++ [.solution a]

/-- Monitors for checkpoints. -/
def ckMons (c : MonCfg) : List Mon := if c.ckInterval ≠ 0 then [.checkpoint] else []

/-- Monitors for time series. -/
def srMons (c : MonCfg) : List Mon := if 0 < c.boundaryFluxes ∨ 0 < c.observations then [.series] else []

/-- The live viewer suits the monitors for output. -/
def VfOk (c : MonCfg) (s : MonState) (a : Option ℕ) : Prop := c.format = .binary → s.vf = a ∧ a.isSome = true

theorem createViewer_same (alloc : ℕ → ℕ) (c : MonCfg) (s : MonState) :
    (createViewer alloc c s).step = s.step ∧ (createViewer alloc c s).isRestart = s.isRestart ∧
    (createViewer alloc c s).restartStep = s.restartStep ∧ (createViewer alloc c s).refined = s.refined ∧
    (createViewer alloc c s).trace = s.trace := by
  obtain ⟨e, f, i, d, o, k, b, ob⟩ := c
  cases f <;> cases e <;> cases d <;>
    simp only [createViewer, setLog, monitorSet, makeViewer] <;> (repeat' split) <;> simp

theorem createViewer_ts (alloc : ℕ → ℕ) (c : MonCfg) (hc : c.Ok) (s : MonState)
    (h : ∀ m ∈ s.ts, m.writes ≠ .message ∧ (m.writes = .fields → m = .option)) :
    (createViewer alloc c s).ts = s.ts ++ outMons c (some (alloc s.made)) ∧
    VfOk c (createViewer alloc c s) (some (alloc s.made)) := by
  obtain ⟨e, f, i, d, o, k, b, ob⟩ := c
  have he : e = true ↔ f ≠ .none := hc.enable
  have h1 : Mon.xdmf ∉ s.ts := fun hm => by have := (h _ hm).2 rfl; cases this
  have h2 : Mon.log ∉ s.ts := fun hm => (h _ hm).1 rfl
  have h3 : ∀ a, Mon.solution a ∉ s.ts := fun a hm => by have := (h _ hm).2 rfl; cases this
  cases f <;> cases e <;> simp at he <;> cases d <;>
    simp [createViewer, setLog, monitorSet, makeViewer, outMons, VfOk, h1, h2, h3] <;>
    by_cases hv : s.viewer = true <;> simp [hv, h2]

theorem callable_base (c : MonCfg) (s : MonState) :
    (∀ m ∈ initSolverMons c, callable c s m) ∧ (∀ m ∈ ckMons c, callable c s m) ∧
    ∀ m ∈ srMons c, callable c s m := by
  refine ⟨fun m hm => ?_, fun m hm => ?_, fun m hm => ?_⟩
  · unfold initSolverMons at hm; split at hm <;> simp at hm; subst hm; trivial
  · unfold ckMons at hm; split at hm <;> simp at hm; subst hm; trivial
  · unfold srMons at hm; split at hm <;> simp at hm; subst hm; trivial

theorem callable_out (c : MonCfg) (hc : c.Ok) (s : MonState) (a : Option ℕ) (hv : VfOk c s a) :
    ∀ m ∈ outMons c a, callable c s m := by
  intro m hm
  have hi := hc.interval
  obtain ⟨e, f, i, d, o, k, b, ob⟩ := c
  cases f <;> cases d <;> simp [outMons] at hm <;> simp [VfOk] at hv <;> simp at hi
  · subst hm; exact ⟨hv.2, hv.1.symm⟩
  · rcases hm with rfl | rfl
    · exact hi
    · exact ⟨hv.2, hv.1.symm⟩
  · subst hm; trivial
  · subst hm; trivial
  · subst hm; exact hi

/-- The monitors of the integrator and of output, around `X` and `Y`. -/
theorem right_out (c : MonCfg) (hc : c.Ok) (a : Option ℕ) (X Y : List Mon) (w : Writer)
    (hw : w = .fields ∨ w = .message)
    (hX : ∀ m ∈ X, m.writes ≠ .fields ∧ m.writes ≠ .message)
    (hY : ∀ m ∈ Y, m.writes ≠ .fields ∧ m.writes ≠ .message) :
    Right c w (initSolverMons c ++ X ++ outMons c a ++ Y) := by
  have z : ∀ L : List Mon, (∀ m ∈ L, m.writes ≠ .fields ∧ m.writes ≠ .message) →
      L.filter (fun m => m.writes = w) = [] := by
    intro L hL
    rw [List.filter_eq_nil_iff]
    intro m hm
    have := hL m hm
    rcases hw with rfl | rfl <;> simp [this]
  unfold Right written
  simp only [List.filter_append, z X hX, z Y hY]
  have he := hc.enable
  have ho := hc.option
  obtain ⟨e, f, i, d, o, k, b, ob⟩ := c
  cases f <;> cases d <;> cases o <;> simp at ho <;> rcases hw with rfl | rfl <;>
    simp [Wanted, outMons, initSolverMons, Mon.writes]

theorem ck_none (c : MonCfg) : ∀ m ∈ ckMons c, m = .checkpoint := by
  intro m hm; unfold ckMons at hm; split at hm <;> simp at hm; exact hm

theorem sr_none (c : MonCfg) : ∀ m ∈ srMons c, m = .series := by
  intro m hm; unfold srMons at hm; split at hm <;> simp at hm; exact hm

theorem sv_none (c : MonCfg) : ∀ m ∈ initSolverMons c, m = .option := by
  intro m hm; unfold initSolverMons at hm; split at hm <;> simp at hm; exact hm

theorem out_none (c : MonCfg) (a : Option ℕ) : ∀ m ∈ outMons c a, m.writes = .fields ∨ m.writes = .message := by
  intro m hm
  obtain ⟨e, f, i, d, o, k, b, ob⟩ := c
  cases f <;> cases d <;> simp [outMons] at hm
  · subst hm; simp [Mon.writes]
  · rcases hm with rfl | rfl <;> simp [Mon.writes]
  · subst hm; simp [Mon.writes]
  · subst hm; simp [Mon.writes]
  · subst hm; simp [Mon.writes]

theorem written_append (w : Writer) (A B : List Mon) : written w (A ++ B) = written w A + written w B := by
  simp [written]

theorem written_none (w : Writer) (A : List Mon) (h : ∀ m ∈ A, m.writes ≠ w) : written w A = 0 := by
  unfold written
  rw [List.length_eq_zero_iff, List.filter_eq_nil_iff]
  intro m hm
  simpa using h m hm

theorem written_ck (c : MonCfg) : written .checkpoint (ckMons c) = if c.ckInterval ≠ 0 then 1 else 0 := by
  unfold ckMons; split <;> simp [written, Mon.writes]

theorem written_sr (c : MonCfg) :
    written .series (srMons c) = if 0 < c.boundaryFluxes ∨ 0 < c.observations then 1 else 0 := by
  unfold srMons; split <;> simp [written, Mon.writes]

theorem written_out (c : MonCfg) (a : Option ℕ) (w : Writer) (hw : w = .checkpoint ∨ w = .series) :
    written w (outMons c a) = 0 := by
  refine written_none _ _ fun m hm => ?_
  rcases out_none c a m hm with h | h <;> rw [h] <;> rcases hw with rfl | rfl <;> decide

theorem written_sv (c : MonCfg) (w : Writer) (hw : w ≠ .fields) : written w (initSolverMons c) = 0 := by
  refine written_none _ _ fun m hm => ?_
  rw [sv_none c m hm]
  exact fun h => hw h.symm

/-- All monitors, in the order of registration. -/
def allMons (c : MonCfg) (a : Option ℕ) : List Mon := initSolverMons c ++ ckMons c ++ outMons c a ++ srMons c

theorem right_all (c : MonCfg) (hc : c.Ok) (a : Option ℕ) (w : Writer) : Right c w (allMons c a) := by
  by_cases hw : w = .fields ∨ w = .message
  · exact right_out c hc a _ _ w hw (fun m hm => by rw [ck_none c m hm]; simp [Mon.writes])
      (fun m hm => by rw [sr_none c m hm]; simp [Mon.writes])
  · unfold Right allMons
    simp only [written_append]
    have h0 : w = .checkpoint ∨ w = .series := by cases w <;> simp_all
    rw [written_sv c w (by rintro rfl; simp at hw), written_out c a w h0]
    rcases h0 with rfl | rfl
    · rw [written_ck, written_none .checkpoint (srMons c) (fun m hm => by rw [sr_none c m hm]; simp [Mon.writes])]
      simp [Wanted]
    · rw [written_sr, written_none .series (ckMons c) (fun m hm => by rw [ck_none c m hm]; simp [Mon.writes])]
      simp only [Wanted]
      exact ⟨fun h => by rw [if_pos h], fun h => by rw [if_neg h]⟩

/-- `TSSolve` when all monitors may be called. -/
theorem solveMons_ok (c : MonCfg) (n : ℕ) (final : Bool) (s : MonState) (h : ∀ m ∈ s.ts, callable c s m) :
    solveMons c n final s = .ok { s with
      step := s.step + n
      trace := s.trace ++ (List.range (n + 1)).map fun k => (s.step + k, s.ts)
      vf := if final = true then Option.none else s.vf
      viewer := if final = true then false else s.viewer } := by
  unfold solveMons; rw [if_pos h]

/-- A calm `RDyAdvance`: nothing new is registered. -/
theorem monAdvance_calm (alloc : ℕ → ℕ) (c : MonCfg) (n : ℕ) (final : Bool) (s : MonState) (h0 : s.step ≠ 0)
    (h1 : s.restartStep < s.step) (h2 : s.refined = false) :
    monAdvance alloc c n final s = solveMons c n final s := by
  unfold monAdvance startMons
  rw [if_neg h0]
  unfold restartMons
  rw [if_neg (by rintro ⟨_, h⟩; omega)]
  unfold refinedMons
  rw [if_neg (by simp [h2])]

theorem initCheckpoints_ts (c : MonCfg) (s : MonState) (hs : s.ts = initSolverMons c) :
    (initCheckpoints c s).ts = initSolverMons c ++ ckMons c ∧ (initCheckpoints c s).step = s.step ∧
    (initCheckpoints c s).isRestart = s.isRestart ∧ (initCheckpoints c s).restartStep = s.restartStep ∧
    (initCheckpoints c s).refined = s.refined ∧ (initCheckpoints c s).trace = s.trace ∧
    (initCheckpoints c s).vf = s.vf ∧ (initCheckpoints c s).made = s.made := by
  have hn : Mon.checkpoint ∉ initSolverMons c := by
    intro hm
    have := sv_none c _ hm
    cases this
  by_cases h : c.ckInterval = 0
  · simp [initCheckpoints, ckMons, h, hs]
  · simp [initCheckpoints, ckMons, h, monitorSet, hn, hs]

theorem setup_ts (c : MonCfg) : (monSetup c .none).ts = initSolverMons c ++ ckMons c :=
  (initCheckpoints_ts c ⟨initSolverMons c, false, Option.none, 0, 0, false, -1, false, []⟩ rfl).1

/-- The state at the start of a run. -/
theorem setup_rest (c : MonCfg) : (monSetup c .none).step = 0 ∧ (monSetup c .none).isRestart = false ∧
    (monSetup c .none).restartStep = -1 ∧ (monSetup c .none).refined = false ∧
    (monSetup c .none).trace = [] ∧ (monSetup c .none).vf = none := by
  obtain ⟨_, h1, h2, h3, h4, h5, h6, _⟩ :=
    initCheckpoints_ts c ⟨initSolverMons c, false, Option.none, 0, 0, false, -1, false, []⟩ rfl
  exact ⟨h1, h2, h3, h4, h5, h6⟩

theorem quiet_setup (c : MonCfg) : ∀ m ∈ initSolverMons c ++ ckMons c,
    m.writes ≠ .message ∧ (m.writes = .fields → m = .option) := by
  intro m hm
  rcases List.mem_append.1 hm with h | h
  · rw [sv_none c m h]; simp [Mon.writes]
  · rw [ck_none c m h]; simp [Mon.writes]

theorem startMons_zero (alloc : ℕ → ℕ) (c : MonCfg) (hc : c.Ok) (s : MonState) (h0 : s.step = 0)
    (hs : ∀ m ∈ s.ts, m.writes ≠ .message ∧ (m.writes = .fields → m = .option)) (hs' : Mon.series ∉ s.ts) :
    (startMons alloc c s).ts = s.ts ++ outMons c (some (alloc s.made)) ++ srMons c ∧
    VfOk c (startMons alloc c s) (some (alloc s.made)) ∧ (startMons alloc c s).step = 0 ∧
    (startMons alloc c s).isRestart = s.isRestart ∧ (startMons alloc c s).restartStep = s.restartStep ∧
    (startMons alloc c s).refined = s.refined ∧ (startMons alloc c s).trace = s.trace := by
  obtain ⟨t1, t2⟩ := createViewer_ts alloc c hc s hs
  obtain ⟨e1, e2, e3, e4, e5⟩ := createViewer_same alloc c s
  unfold startMons
  rw [if_pos h0]
  unfold initSeries srMons
  split
  · rw [monitorSet, if_neg]
    · exact ⟨by simp [t1], t2, by simpa using e1.trans h0, e2, e3, e4, e5⟩
    · rw [t1]
      intro hm
      rcases List.mem_append.1 hm with h | h
      · exact hs' h
      · rcases out_none c _ _ h with h | h <;> cases h
  · exact ⟨by simp [t1], t2, e1.trans h0, e2, e3, e4, e5⟩

theorem allMons_callable (c : MonCfg) (hc : c.Ok) (s : MonState) (a : Option ℕ) (hv : VfOk c s a) :
    ∀ m ∈ allMons c a, callable c s m := by
  obtain ⟨b1, b2, b3⟩ := callable_base c s
  intro m hm
  simp only [allMons, List.mem_append] at hm
  rcases hm with ((h | h) | h) | h
  · exact b1 m h
  · exact b2 m h
  · exact callable_out c hc s a hv m h
  · exact b3 m h

/-- The first `RDyAdvance` of a run that is not restarted. -/
theorem first_advance (alloc : ℕ → ℕ) (c : MonCfg) (hc : c.Ok) (n : ℕ) (final : Bool) :
    ∃ s a, monAdvance alloc c n final (monSetup c .none) = .ok s ∧ s.ts = allMons c a ∧ s.step = n ∧
      s.restartStep = -1 ∧ s.refined = false ∧ (final = false → VfOk c s a) ∧
      s.trace = (List.range (n + 1)).map fun k => (0 + k, allMons c a) := by
  obtain ⟨r1, r2, r3, r4, r5, r6⟩ := setup_rest c
  have hts := setup_ts c
  obtain ⟨t1, t2, t3, t4, t5, t6, t7⟩ := startMons_zero alloc c hc (monSetup c .none) r1
    (by rw [hts]; exact quiet_setup c)
    (by
      rw [hts]
      intro hm
      rcases List.mem_append.1 hm with h | h
      · have := sv_none c _ h; cases this
      · have := ck_none c _ h; cases this)
  rw [hts] at t1
  have e : monAdvance alloc c n final (monSetup c .none)
      = solveMons c n final (startMons alloc c (monSetup c .none)) := by
    unfold monAdvance restartMons
    rw [if_neg (by rw [t4, r2]; simp)]
    unfold refinedMons
    rw [if_neg (by rw [t6, r4]; simp)]
  rw [e, solveMons_ok c n final _ (by rw [t1]; exact allMons_callable c hc _ _ t2)]
  refine ⟨_, some (alloc (monSetup c .none).made), rfl, t1, ?_, t5.trans r3, t6.trans r4, ?_, ?_⟩
  · simp [t3]
  · intro hf hb
    simp only [hf, if_false, Bool.false_eq_true]
    exact t2 hb
  · simp only [t7, r5, t3, t1, List.nil_append]
    rfl

/-- The later ones. -/
theorem later_advances (alloc : ℕ → ℕ) (c : MonCfg) (a : Option ℕ) (L : List Mon)
    (hL : ∀ s, VfOk c s a → ∀ m ∈ L, callable c s m) (ns : List (ℕ × Bool))
    (hn : ∀ x ∈ ns, 0 < x.1) (hf : c.format = .binary → ∀ x ∈ ns.dropLast, x.2 = false) :
    ∀ s : MonState, s.ts = L → 0 < s.step → s.restartStep < s.step → s.refined = false →
      (ns ≠ [] → VfOk c s a) →
      ∃ s', monRun alloc c s (ns.map fun x => .advance x.1 x.2) = .ok s' ∧
        s'.trace = s.trace ++ (reported s.step (ns.map Prod.fst)).map fun k => (k, L) := by
  induction ns with
  | nil => intro s _ _ _ _ _; exact ⟨s, rfl, by simp [reported]⟩
  | cons x ns ih =>
    intro s h1 h2 h3 h4 h5
    obtain ⟨n, fin⟩ := x
    have hv := h5 (by simp)
    have e : monAdvance alloc c n fin s = solveMons c n fin s :=
      monAdvance_calm alloc c n fin s (by omega) h3 h4
    rw [solveMons_ok c n fin s (by rw [h1]; exact hL s hv)] at e
    obtain ⟨s', hr, ht⟩ := ih (fun y hy => hn y (List.mem_cons_of_mem _ hy))
      (fun hb y hy => by
        refine hf hb y ?_
        cases ns with
        | nil => simp at hy
        | cons z zs => rw [List.dropLast_cons_of_ne_nil (by simp)]; exact List.mem_cons_of_mem _ hy)
      { s with
        step := s.step + n
        trace := s.trace ++ (List.range (n + 1)).map fun k => (s.step + k, s.ts)
        vf := if fin = true then Option.none else s.vf
        viewer := if fin = true then false else s.viewer } h1 (by simp only; omega) (by simp only; push_cast; omega) h4
      (by
        intro hne hb
        have hfin : fin = false := hf hb (n, fin) (by
          rw [List.dropLast_cons_of_ne_nil hne]; exact List.mem_cons_self ..)
        simp only [hfin, Bool.false_eq_true, if_false]
        exact hv hb)
    refine ⟨s', ?_, ?_⟩
    · rw [List.map_cons, monRun]
      simp only [monOp]
      rw [e]
      exact hr
    · rw [ht]
      simp only [List.map_cons, reported, List.map_append, List.map_map, h1, List.append_assoc]
      rfl

/-- C93: in a run that is neither restarted nor refined, for any number of calls of `RDyAdvance` and any
number of steps taken by them, for every step that is reported each thing that is asked for is looked
after exactly once, and nothing that is not asked for is written; every step from the first to the last
is reported.

Missing from the full property: restarted and refined runs, below. -/
theorem C93_fresh_partial (alloc : ℕ → ℕ) (c : MonCfg) (hc : c.Ok) (ns : List (ℕ × Bool))
    (hn : ∀ x ∈ ns, 0 < x.1) (hf : c.format = .binary → ∀ x ∈ ns.dropLast, x.2 = false) :
    ∃ s, monRun alloc c (monSetup c .none) (ns.map fun x => .advance x.1 x.2) = .ok s ∧
      s.trace.map Prod.fst = reported 0 (ns.map Prod.fst) ∧
      ∀ p ∈ s.trace, ∀ w, Right c w p.2 := by
  cases ns with
  | nil =>
    obtain ⟨_, _, _, _, r5, _⟩ := setup_rest c
    exact ⟨_, rfl, by rw [r5]; rfl, by rw [r5]; simp⟩
  | cons x ns =>
    obtain ⟨n, fin⟩ := x
    obtain ⟨s, a, e, h1, h2, h3, h4, h5, h6⟩ := first_advance alloc c hc n fin
    have hn0 : 0 < n := hn (n, fin) (by simp)
    obtain ⟨s', hr, ht⟩ := later_advances alloc c a _ (fun t => allMons_callable c hc t a) ns (fun y hy => hn y (List.mem_cons_of_mem _ hy))
      (fun hb y hy => by
        refine hf hb y ?_
        cases ns with
        | nil => simp at hy
        | cons z zs => rw [List.dropLast_cons_of_ne_nil (by simp)]; exact List.mem_cons_of_mem _ hy)
      s h1 (by omega) (by rw [h3, h2]; omega) h4
      (by
        intro hne hb
        have hfin : fin = false := hf hb (n, fin) (by
          rw [List.dropLast_cons_of_ne_nil hne]; exact List.mem_cons_self ..)
        exact h5 hfin hb)
    refine ⟨s', ?_, ?_, ?_⟩
    · rw [List.map_cons, monRun]
      simp only [monOp]
      rw [e]
      exact hr
    · rw [ht, h6]
      simp only [List.map_append, List.map_map, List.map_cons, reported, h2]
      simp [Function.comp_def]
    · rw [ht, h6]
      intro p hp w
      rcases List.mem_append.1 hp with h | h
      · obtain ⟨k, _, rfl⟩ := List.mem_map.1 h
        exact right_all c hc a w
      · obtain ⟨k, _, rfl⟩ := List.mem_map.1 h
        exact right_all c hc a w

/-- Binary output every step, checkpoints every second step, an observation point, messages. -/
def exMon : MonCfg := ⟨true, .binary, 1, true, false, 2, 0, 1⟩

theorem exMon_ok : exMon.Ok := by constructor <;> decide

example : ∃ s, monRun (fun k => 10 + k) exMon (monSetup exMon .none)
      [.advance 2 false, .advance 1 true] = .ok s ∧
    s.trace = [0, 1, 2, 2, 3].map fun k => (k, [.checkpoint, .log, .solution (some 10), .series]) := by
  refine ⟨_, rfl, ?_⟩
  decide

example : Wanted exMon .series ∧ Wanted exMon .checkpoint ∧ Wanted exMon .fields ∧ Wanted exMon .message := by
  simp [Wanted, exMon]

/-- C93 fails for messages about output that is asked for by time alone (`output.time_interval` without
`output.output_interval`, binary or CGNS): with detailed logging the first solve divides by the interval,
which is zero. -/
theorem C93_message_violated (alloc : ℕ → ℕ) (c : MonCfg) (he : c.enable = true) (hd : c.detail = true)
    (hf : c.format = .binary ∨ c.format = .cgns) (hi : c.outputInterval = 0) (n : ℕ) (final : Bool) :
    monRun alloc c (monSetup c .none) [.advance n final] = .ub := by
  obtain ⟨r1, r2, _, r4, _, _⟩ := setup_rest c
  have key : Mon.log ∈ (createViewer alloc c (monSetup c .none)).ts := by
    have h0 : ∀ (m : Mon) (s : MonState), m ∈ (monitorSet m s).ts := by
      intro m s
      unfold monitorSet
      split <;> simp_all
    have h1 : ∀ (m m' : Mon) (s : MonState), m ∈ s.ts → m ∈ (monitorSet m' s).ts := by
      intro m m' s h
      unfold monitorSet
      split <;> simp_all
    unfold createViewer setLog
    rw [if_pos he]
    rcases hf with hf | hf
    · simp only [hf, hd, if_true]
      exact h1 _ _ _ (h0 _ _)
    · simp only [hf, hd, if_true]
      exact h0 _ _
  obtain ⟨e1, e2, e3, e4, e5⟩ := createViewer_same alloc c (monSetup c .none)
  have key2 : Mon.log ∈ (startMons alloc c (monSetup c .none)).ts ∧
      (startMons alloc c (monSetup c .none)).isRestart = false ∧
      (startMons alloc c (monSetup c .none)).refined = false := by
    unfold startMons initSeries monitorSet
    rw [if_pos r1]
    split
    · split
      · exact ⟨key, e2.trans r2, e4.trans r4⟩
      · exact ⟨List.mem_append_left _ key, e2.trans r2, e4.trans r4⟩
    · exact ⟨key, e2.trans r2, e4.trans r4⟩
  have e : monAdvance alloc c n final (monSetup c .none) = .ub := by
    unfold monAdvance restartMons
    rw [if_neg (by rw [key2.2.1]; simp)]
    unfold refinedMons
    rw [if_neg (by rw [key2.2.2]; simp)]
    unfold solveMons
    rw [if_neg]
    intro h
    have := h _ key2.1
    exact this hi
  rw [monRun]
  simp only [monOp]
  rw [e]

example : monRun (fun k => k) ⟨true, .cgns, 0, true, true, 0, 0, 0⟩ (monSetup ⟨true, .cgns, 0, true, true, 0, 0, 0⟩ .none)
    [.advance 3 false] = .ub :=
  C93_message_violated _ _ rfl rfl (Or.inr rfl) rfl _ _

/-! ## Restarted runs -/

/-- The state of a restarted run. -/
theorem restart_rest (c : MonCfg) (N : ℕ) :
    (monSetup c (.continued N)).ts = initSolverMons c ++ ckMons c ∧ (monSetup c (.continued N)).step = N ∧
    (monSetup c (.continued N)).isRestart = true ∧ (monSetup c (.continued N)).restartStep = N ∧
    (monSetup c (.continued N)).refined = false ∧ (monSetup c (.continued N)).trace = [] := by
  obtain ⟨h0, h1, h2, h3, h4, h5, h6, _⟩ :=
    initCheckpoints_ts c ⟨initSolverMons c, false, Option.none, 0, 0, true, 0, false, []⟩ rfl
  exact ⟨h0, rfl, h2, rfl, h4, h5⟩

/-- The first `RDyAdvance` of a restarted run. -/
theorem restart_advance (alloc : ℕ → ℕ) (c : MonCfg) (hc : c.Ok) (N : ℕ) (hN : 0 < N) (n : ℕ) (final : Bool) :
    ∃ s a, monAdvance alloc c n final (monSetup c (.continued N)) = .ok s ∧
      s.ts = initSolverMons c ++ ckMons c ++ outMons c a ∧ s.step = N + n ∧
      s.restartStep = N ∧ s.refined = false ∧ (final = false → VfOk c s a) ∧
      s.trace = (List.range (n + 1)).map fun k => (N + k, initSolverMons c ++ ckMons c ++ outMons c a) := by
  obtain ⟨r0, r1, r2, r3, r4, r5⟩ := restart_rest c N
  obtain ⟨t1, t2⟩ := createViewer_ts alloc c hc (monSetup c (.continued N)) (by rw [r0]; exact quiet_setup c)
  obtain ⟨e1, e2, e3, e4, e5⟩ := createViewer_same alloc c (monSetup c (.continued N))
  rw [r0] at t1
  have e : monAdvance alloc c n final (monSetup c (.continued N))
      = solveMons c n final (createViewer alloc c (monSetup c (.continued N))) := by
    unfold monAdvance startMons
    rw [if_neg (by rw [r1]; omega)]
    unfold restartMons
    rw [if_pos ⟨r2, by rw [r3, r1]⟩]
    unfold refinedMons
    rw [if_neg (by rw [e4, r4]; simp)]
  obtain ⟨b1, b2, b3⟩ := callable_base c (createViewer alloc c (monSetup c (.continued N)))
  rw [e, solveMons_ok c n final _ (by
    rw [t1]
    intro m hm
    simp only [List.mem_append] at hm
    rcases hm with (h | h) | h
    · exact b1 m h
    · exact b2 m h
    · exact callable_out c hc _ _ t2 m h)]
  refine ⟨_, some (alloc (monSetup c (.continued N)).made), rfl, t1, ?_, e3.trans r3, e4.trans r4, ?_, ?_⟩
  · simp [e1, r1]
  · intro hf hb
    simp only [hf, if_false, Bool.false_eq_true]
    exact t2 hb
  · simp only [e5, r5, t1, e1, r1, List.nil_append]

/-- C93 for a run that continues from a checkpoint of a later step than the first: fields, messages and
checkpoints are looked after exactly once for every step that is reported, if they are asked for.

Missing from the full property: time series, see `C93_restart_series_violated`. -/
theorem C93_restart_partial (alloc : ℕ → ℕ) (c : MonCfg) (hc : c.Ok) (N : ℕ) (hN : 0 < N)
    (ns : List (ℕ × Bool)) (hn : ∀ x ∈ ns, 0 < x.1)
    (hf : c.format = .binary → ∀ x ∈ ns.dropLast, x.2 = false) :
    ∃ s, monRun alloc c (monSetup c (.continued N)) (ns.map fun x => .advance x.1 x.2) = .ok s ∧
      s.trace.map Prod.fst = reported N (ns.map Prod.fst) ∧
      ∀ p ∈ s.trace, ∀ w, w ≠ .series → Right c w p.2 := by
  have right : ∀ a w, w ≠ .series → Right c w (initSolverMons c ++ ckMons c ++ outMons c a) := by
    intro a w hw
    by_cases h : w = .fields ∨ w = .message
    · have := right_out c hc a (ckMons c) [] w h
        (fun m hm => by rw [ck_none c m hm]; simp [Mon.writes]) (by simp)
      rwa [List.append_nil] at this
    · have h0 : w = .checkpoint := by cases w <;> simp_all
      subst h0
      unfold Right
      simp only [written_append, written_ck, written_sv c .checkpoint (by decide),
        written_out c a .checkpoint (Or.inl rfl), Wanted]
      simp
  cases ns with
  | nil =>
    obtain ⟨_, _, _, _, _, r5⟩ := restart_rest c N
    exact ⟨_, rfl, by rw [r5]; rfl, by rw [r5]; simp⟩
  | cons x ns =>
    obtain ⟨n, fin⟩ := x
    obtain ⟨s, a, e, h1, h2, h3, h4, h5, h6⟩ := restart_advance alloc c hc N hN n fin
    have hn0 : 0 < n := hn (n, fin) (by simp)
    obtain ⟨s', hr, ht⟩ := later_advances alloc c a _ (fun t ht m hm => by
        obtain ⟨b1, b2, b3⟩ := callable_base c t
        simp only [List.mem_append] at hm
        rcases hm with (h | h) | h
        · exact b1 m h
        · exact b2 m h
        · exact callable_out c hc _ _ ht m h) ns (fun y hy => hn y (List.mem_cons_of_mem _ hy))
      (fun hb y hy => by
        refine hf hb y ?_
        cases ns with
        | nil => simp at hy
        | cons z zs => rw [List.dropLast_cons_of_ne_nil (by simp)]; exact List.mem_cons_of_mem _ hy)
      s h1 (by omega) (by rw [h3, h2]; push_cast; omega) h4
      (by
        intro hne hb
        have hfin : fin = false := hf hb (n, fin) (by
          rw [List.dropLast_cons_of_ne_nil hne]; exact List.mem_cons_self ..)
        exact h5 hfin hb)
    refine ⟨s', ?_, ?_, ?_⟩
    · rw [List.map_cons, monRun]
      simp only [monOp]
      rw [e]
      exact hr
    · rw [ht, h6]
      simp only [List.map_append, List.map_map, List.map_cons, reported, h2]
      simp [Function.comp_def]
    · rw [ht, h6]
      intro p hp w hw
      rcases List.mem_append.1 hp with h | h
      · obtain ⟨k, _, rfl⟩ := List.mem_map.1 h
        exact right a w hw
      · obtain ⟨k, _, rfl⟩ := List.mem_map.1 h
        exact right a w hw

example : ∃ s, monRun (fun k => 10 + k) exMon (monSetup exMon (.continued 4)) [.advance 2 false, .advance 1 true]
      = .ok s ∧
    s.trace = [4, 5, 6, 6, 7].map fun k => (k, [.checkpoint, .log, .solution (some 10)]) := by
  refine ⟨_, rfl, ?_⟩
  decide

/-! ### What is lost -/

/-- A call that does not read a checkpoint. -/
def RunOp.isRead : RunOp → Bool
  | .read _ => true
  | _ => false

/-- Registering a monitor for something else does not touch `w`. -/
theorem monitorSet_quiet (w : Writer) (m : Mon) (hm : m.writes ≠ w) (s : MonState) :
    written w (monitorSet m s).ts = written w s.ts := by
  unfold monitorSet
  split
  · rfl
  · simp only [written_append]
    rw [written_none w [m] (by simpa using hm)]
    rfl

theorem makeViewer_ts (alloc : ℕ → ℕ) (c : MonCfg) (s : MonState) : (makeViewer alloc c s).ts = s.ts := by
  unfold makeViewer; split <;> rfl

theorem createViewer_quiet (alloc : ℕ → ℕ) (c : MonCfg) (w : Writer) (hw : w = .checkpoint ∨ w = .series)
    (s : MonState) : written w (createViewer alloc c s).ts = written w s.ts := by
  have h1 : Mon.xdmf.writes ≠ w := by rcases hw with rfl | rfl <;> decide
  have h2 : Mon.log.writes ≠ w := by rcases hw with rfl | rfl <;> decide
  have h3 : ∀ a, (Mon.solution a).writes ≠ w := by intro a; rcases hw with rfl | rfl <;> simp [Mon.writes]
  have hl : ∀ t, written w (setLog c t).ts = written w t.ts := by
    intro t; unfold setLog; split
    · exact monitorSet_quiet w _ h2 t
    · rfl
  unfold createViewer
  split
  · split
    · rw [monitorSet_quiet w _ h1, makeViewer_ts]
    · rw [hl, makeViewer_ts]
    · rw [monitorSet_quiet w _ (h3 _), hl, makeViewer_ts]
    · rw [monitorSet_quiet w _ (h3 _), hl, makeViewer_ts]
  · rfl

/-- What is not looked after at a step other than the first is not looked after later. -/
theorem lost (alloc : ℕ → ℕ) (c : MonCfg) (w : Writer) (hw : w = .checkpoint ∨ w = .series) (os : List RunOp)
    (ho : ∀ o ∈ os, o.isRead = false) :
    ∀ s s' : MonState, 0 < s.step → written w s.ts = 0 → monRun alloc c s os = .ok s' →
      ∃ t, s'.trace = s.trace ++ t ∧ ∀ p ∈ t, written w p.2 = 0 := by
  induction os with
  | nil =>
    intro s s' _ _ h
    simp only [monRun, Res.ok.injEq] at h
    exact ⟨[], by rw [← h]; simp, by simp⟩
  | cons o os ih =>
    intro s s' h0 hz h
    have ih' := ih (fun x hx => ho x (List.mem_cons_of_mem _ hx))
    cases o with
    | read n => have := ho (.read n) (by simp); simp [RunOp.isRead] at this
    | refine =>
      rw [monRun] at h
      simp only [monOp] at h
      exact ih' (monRefine c s) s' h0 (written_sv c w (by rintro rfl; simp at hw)) h
    | advance n fin =>
      rw [monRun] at h
      simp only [monOp] at h
      have hs : startMons alloc c s = s := by unfold startMons; rw [if_neg (by omega)]
      have key : ∃ u : MonState, monAdvance alloc c n fin s = solveMons c n fin u ∧ u.step = s.step ∧
          u.trace = s.trace ∧ written w u.ts = 0 := by
        refine ⟨_, rfl, ?_⟩
        rw [hs]
        have k1 : (restartMons alloc c s).step = s.step ∧ (restartMons alloc c s).trace = s.trace ∧
            written w (restartMons alloc c s).ts = 0 := by
          unfold restartMons
          split
          · obtain ⟨e1, _, _, _, e5⟩ := createViewer_same alloc c s
            exact ⟨e1, e5, by rw [createViewer_quiet alloc c w hw, hz]⟩
          · exact ⟨rfl, rfl, hz⟩
        unfold refinedMons
        split
        · obtain ⟨e1, _, _, _, e5⟩ := createViewer_same alloc c (restartMons alloc c s)
          exact ⟨e1.trans k1.1, e5.trans k1.2.1, by
            simp only; rw [createViewer_quiet alloc c w hw, k1.2.2]⟩
        · exact k1
      obtain ⟨u, hu, u1, u2, u3⟩ := key
      rw [hu] at h
      unfold solveMons at h
      by_cases hcall : ∀ m ∈ u.ts, callable c u m
      · rw [if_pos hcall] at h
        obtain ⟨t, ht, hp⟩ := ih' _ s' (by simp only; omega) (by exact u3) h
        refine ⟨((List.range (n + 1)).map fun k => (u.step + k, u.ts)) ++ t, ?_, ?_⟩
        · rw [ht]
          simp only [u2, List.append_assoc]
        · intro p hp'
          rcases List.mem_append.1 hp' with h' | h'
          · obtain ⟨k, _, rfl⟩ := List.mem_map.1 h'
            exact u3
          · exact hp p h'
      · rw [if_neg hcall] at h
        simp at h

/-- C93 fails for time series in a restarted run: a run that continues from a checkpoint of a later step
than the first never records boundary fluxes or observations, whatever is asked for and however it goes
on. -/
theorem C93_restart_series_violated (alloc : ℕ → ℕ) (c : MonCfg) (N : ℕ) (hN : 0 < N) (os : List RunOp)
    (ho : ∀ o ∈ os, o.isRead = false) (s : MonState)
    (h : monRun alloc c (monSetup c (.continued N)) os = .ok s) : ∀ p ∈ s.trace, written .series p.2 = 0 := by
  obtain ⟨r0, r1, r2, r3, r4, r5⟩ := restart_rest c N
  obtain ⟨t, ht, hp⟩ := lost alloc c .series (Or.inr rfl) os ho _ s (by rw [r1]; exact hN)
    (by
      rw [r0, written_append, written_sv c .series (by decide),
        written_none .series (ckMons c) (fun m hm => by rw [ck_none c m hm]; simp [Mon.writes])]) h
  intro p hp'
  rw [ht, r5, List.nil_append] at hp'
  exact hp p hp'

example : ∃ s, monRun (fun k => k) exMon (monSetup exMon (.continued 4)) [.advance 2 false] = .ok s ∧
    Wanted exMon .series ∧ s.trace.length = 3 ∧ ∀ p ∈ s.trace, written .series p.2 = 0 := by
  refine ⟨_, rfl, by simp [Wanted, exMon], by decide, ?_⟩
  exact C93_restart_series_violated (fun k => k) exMon 4 (by decide) [.advance 2 false]
    (by simp [RunOp.isRead]) _ rfl

/-- C93 fails for checkpoints and time series in a refined run: once the mesh has been refined (after the
first step), no checkpoint and no time series is written any more. -/
theorem C93_refine_violated (alloc : ℕ → ℕ) (c : MonCfg) (r : Restart) (before after : List RunOp) (s s' : MonState)
    (_hb : monRun alloc c (monSetup c r) before = .ok s) (hs : 0 < s.step)
    (ho : ∀ o ∈ after, o.isRead = false) (ha : monRun alloc c s (.refine :: after) = .ok s') :
    ∃ t, s'.trace = s.trace ++ t ∧ ∀ p ∈ t, written .checkpoint p.2 = 0 ∧ written .series p.2 = 0 := by
  rw [monRun] at ha
  simp only [monOp] at ha
  obtain ⟨t, ht, hp⟩ := lost alloc c .checkpoint (Or.inl rfl) after ho (monRefine c s) s' hs
    (written_sv c _ (by decide)) ha
  obtain ⟨t', ht', hp'⟩ := lost alloc c .series (Or.inr rfl) after ho (monRefine c s) s' hs
    (written_sv c _ (by decide)) ha
  have : t' = t := by
    have := ht'.symm.trans ht
    exact List.append_cancel_left this
  subst this
  exact ⟨t', ht, fun p hp1 => ⟨hp p hp1, hp' p hp1⟩⟩

example : ∃ s s', monRun (fun k => k) exMon (monSetup exMon .none) [.advance 2 false] = .ok s ∧
    monRun (fun k => k) exMon s [.refine, .advance 2 false] = .ok s' ∧ 0 < s.step ∧
    s'.trace = s.trace ++ [2, 3, 4].map fun k => (k, [.log, .solution (some 1)]) := by
  refine ⟨_, _, rfl, rfl, by decide, ?_⟩
  decide

/-- C93 fails where a checkpoint is read through the interface (`RDyReadHDF5CheckpointFile`) before the
first `RDyAdvance`: neither fields (unless CGNS) nor time series are written. -/
theorem C93_read_violated (alloc : ℕ → ℕ) (c : MonCfg) (hc : c.Ok) (hf : c.format ≠ .cgns) (N : ℕ) (hN : 0 < N)
    (ns : List (ℕ × Bool)) :
    ∃ s, monRun alloc c (monSetup c .none) (.read N :: ns.map fun x => .advance x.1 x.2) = .ok s ∧
      s.trace.map Prod.fst = reported N (ns.map Prod.fst) ∧
      ∀ p ∈ s.trace, written .fields p.2 = 0 ∧ written .series p.2 = 0 := by
  obtain ⟨r1, r2, r3, r4, r5, r6⟩ := setup_rest c
  have hts := setup_ts c
  have hsv : initSolverMons c = [] := by
    unfold initSolverMons
    rw [if_neg (fun h => hf (hc.option.1 h))]
  rw [hsv, List.nil_append] at hts
  have gen : ∀ (ns : List (ℕ × Bool)) (t : MonState), 0 < t.step → t.ts = ckMons c → t.isRestart = false →
      t.refined = false →
      ∃ s, monRun alloc c t (ns.map fun x => .advance x.1 x.2) = .ok s ∧
        s.trace = t.trace ++ (reported t.step (ns.map Prod.fst)).map fun k => (k, ckMons c) := by
    intro ns
    induction ns with
    | nil => intro t _ _ _ _; exact ⟨t, rfl, by simp [reported]⟩
    | cons x ns ih =>
      intro t h0 h1 h2 h3
      obtain ⟨n, fin⟩ := x
      have e : monAdvance alloc c n fin t = solveMons c n fin t := by
        unfold monAdvance startMons
        rw [if_neg (by omega)]
        unfold restartMons
        rw [if_neg (by simp [h2])]
        unfold refinedMons
        rw [if_neg (by simp [h3])]
      rw [solveMons_ok c n fin t (by rw [h1]; exact (callable_base c t).2.1)] at e
      obtain ⟨s, hs, hs'⟩ := ih { t with
          step := t.step + n
          trace := t.trace ++ (List.range (n + 1)).map fun k => (t.step + k, t.ts)
          vf := if fin = true then Option.none else t.vf
          viewer := if fin = true then false else t.viewer } (by simp only; omega) h1 h2 h3
      refine ⟨s, ?_, ?_⟩
      · rw [List.map_cons, monRun]
        simp only [monOp]
        rw [e]
        exact hs
      · rw [hs']
        simp only [List.map_cons, reported, List.map_append, List.map_map, h1, List.append_assoc]
        rfl
  obtain ⟨s, hs, hs'⟩ := gen ns (readStep (.continued N) (monSetup c .none)) hN hts r2 r4
  refine ⟨s, by rw [monRun]; simp only [monOp]; exact hs, ?_, ?_⟩
  · rw [hs']
    simp only [readStep, r5, List.nil_append, List.map_map]
    simp [Function.comp_def]
  · rw [hs']
    simp only [readStep, r5, List.nil_append]
    intro p hp
    obtain ⟨k, _, rfl⟩ := List.mem_map.1 hp
    exact ⟨written_none _ _ fun m hm => by rw [ck_none c m hm]; simp [Mon.writes],
      written_none _ _ fun m hm => by rw [ck_none c m hm]; simp [Mon.writes]⟩

example : ∃ s, monRun (fun k => k) exMon (monSetup exMon .none) [.read 4, .advance 2 true] = .ok s ∧
    s.trace = [4, 5, 6].map fun k => (k, [.checkpoint]) := by
  refine ⟨_, rfl, ?_⟩
  decide

/-! ## Refined runs -/

/-- What is true between the calls of a run that has been started by `RDyAdvance`. -/
def Between (c : MonCfg) (s : MonState) : Prop :=
  0 < s.step ∧ s.restartStep < s.step ∧
  ((s.refined = true ∧ s.ts = initSolverMons c) ∨
   (s.refined = false ∧ ∃ X Y a, s.ts = initSolverMons c ++ X ++ outMons c a ++ Y ∧
      (∀ m ∈ X, m = .checkpoint) ∧ (∀ m ∈ Y, m = .series)))

/-- The viewer that the monitors for binary output use is there. -/
def Alive (c : MonCfg) (s : MonState) : Prop :=
  s.refined = false → ∀ X Y a, s.ts = initSolverMons c ++ X ++ outMons c a ++ Y →
    (∀ m ∈ X, m = .checkpoint) → (∀ m ∈ Y, m = .series) → VfOk c s a

theorem outMons_inj (c : MonCfg) (a a' : Option ℕ) (X X' Y Y' : List Mon)
    (h : initSolverMons c ++ X ++ outMons c a ++ Y = initSolverMons c ++ X' ++ outMons c a' ++ Y')
    (hX' : ∀ m ∈ X', m = .checkpoint) (hY' : ∀ m ∈ Y', m = .series) (hb : c.format = .binary) : a = a' := by
  have hm : Mon.solution a ∈ initSolverMons c ++ X' ++ outMons c a' ++ Y' := by
    rw [← h]
    simp [outMons, hb]
  simp only [List.mem_append] at hm
  rcases hm with ((h' | h') | h') | h'
  · have := sv_none c _ h'; cases this
  · have := hX' _ h'; cases this
  · simp only [outMons, hb, List.mem_append] at h'
    rcases h' with h' | h'
    · split at h' <;> simp at h'
    · simpa using h'
  · have := hY' _ h'; cases this

theorem mons_callable (c : MonCfg) (hc : c.Ok) (s : MonState) (a : Option ℕ) (X Y : List Mon)
    (hX : ∀ m ∈ X, m = .checkpoint) (hY : ∀ m ∈ Y, m = .series) (hv : VfOk c s a) :
    ∀ m ∈ initSolverMons c ++ X ++ outMons c a ++ Y, callable c s m := by
  intro m hm
  simp only [List.mem_append] at hm
  rcases hm with ((h | h) | h) | h
  · exact (callable_base c s).1 m h
  · rw [hX m h]; trivial
  · exact callable_out c hc s a hv m h
  · rw [hY m h]; trivial

/-- `RDyAdvance` in a run that has been started. -/
theorem between_advance (alloc : ℕ → ℕ) (c : MonCfg) (hc : c.Ok) (s : MonState) (hB : Between c s)
    (hA : Alive c s) (n : ℕ) (fin : Bool) :
    ∃ s' L, monAdvance alloc c n fin s = .ok s' ∧ Between c s' ∧ ((c.format = .binary → fin = false) → Alive c s') ∧
      s'.trace = s.trace ++ ((List.range (n + 1)).map fun k => (s.step + k, L)) ∧ s'.step = s.step + n ∧
      Right c .fields L ∧ Right c .message L := by
  have q : ∀ X : List Mon, (∀ m ∈ X, m = .checkpoint) → ∀ m ∈ X, m.writes ≠ .fields ∧ m.writes ≠ .message := by
    intro X h m hm; rw [h m hm]; simp [Mon.writes]
  have q' : ∀ X : List Mon, (∀ m ∈ X, m = .series) → ∀ m ∈ X, m.writes ≠ .fields ∧ m.writes ≠ .message := by
    intro X h m hm; rw [h m hm]; simp [Mon.writes]
  obtain ⟨h0, hr, h⟩ := hB
  have e0 : startMons alloc c s = s := by unfold startMons; rw [if_neg (by omega)]
  have e1 : restartMons alloc c s = s := by
    unfold restartMons; rw [if_neg (by rintro ⟨_, h⟩; omega)]
  -- the state in which `TSSolve` is called
  obtain ⟨u, X, Y, a, hu, u1, u2, u3, u4, u5, hX, hY, hv⟩ : ∃ (u : MonState) (X Y : List Mon) (a : Option ℕ),
      refinedMons alloc c s = u ∧ u.step = s.step ∧ u.trace = s.trace ∧ u.refined = false ∧
      u.restartStep = s.restartStep ∧ u.ts = initSolverMons c ++ X ++ outMons c a ++ Y ∧
      (∀ m ∈ X, m = .checkpoint) ∧ (∀ m ∈ Y, m = .series) ∧ VfOk c u a := by
    rcases h with ⟨hrf, hts⟩ | ⟨hrf, X, Y, a, hts, hX, hY⟩
    · obtain ⟨t1, t2⟩ := createViewer_ts alloc c hc s (by
        rw [hts]
        intro m hm
        exact quiet_setup c m (List.mem_append_left _ hm))
      obtain ⟨g1, g2, g3, g4, g5⟩ := createViewer_same alloc c s
      refine ⟨{ createViewer alloc c s with refined := false }, [], [], some (alloc s.made), ?_, g1, g5, rfl, g3,
        ?_, by simp, by simp, t2⟩
      · unfold refinedMons; rw [if_pos hrf]
      · simp only [t1, hts, List.append_nil]
    · refine ⟨s, X, Y, a, ?_, rfl, rfl, hrf, rfl, hts, hX, hY, hA hrf X Y a hts hX hY⟩
      unfold refinedMons; rw [if_neg (by simp [hrf])]
  have e : monAdvance alloc c n fin s = solveMons c n fin u := by
    unfold monAdvance; rw [e0, e1, hu]
  rw [solveMons_ok c n fin u (by rw [u5]; exact mons_callable c hc u a X Y hX hY hv)] at e
  refine ⟨_, u.ts, e, ⟨?_, ?_, Or.inr ⟨u3, X, Y, a, u5, hX, hY⟩⟩, ?_, ?_, ?_, ?_, ?_⟩
  · simp only; omega
  · simp only; rw [u4, u1]; push_cast; omega
  · intro hf _ X' Y' a' hts hX' hY' hb
    have hfin := hf hb
    simp only [hfin, Bool.false_eq_true, if_false]
    have ha : a = a' := outMons_inj c a a' X X' Y Y' (u5.symm.trans hts) hX' hY' hb
    rw [← ha]
    exact hv hb
  · simp only [u2, u1]
  · simp only [u1]
  · rw [u5]; exact right_out c hc a X Y _ (Or.inl rfl) (q X hX) (q' Y hY)
  · rw [u5]; exact right_out c hc a X Y _ (Or.inr rfl) (q X hX) (q' Y hY)

/-- Calls of `RDyAdvance` and `RDyPerformAMR` such that `RDyAdvance` takes a step, and is not called again
with binary output when the end of the run has been reached. -/
def Proper (c : MonCfg) : List RunOp → Prop
  | [] => True
  | .read _ :: _ => False
  | .refine :: os => Proper c os
  | .advance n fin :: os => 0 < n ∧ (c.format = .binary → fin = true → os = []) ∧ Proper c os

theorem between_run (alloc : ℕ → ℕ) (c : MonCfg) (hc : c.Ok) (os : List RunOp) (ho : Proper c os) :
    ∀ s, Between c s → (os ≠ [] → Alive c s) →
      ∃ s' t, monRun alloc c s os = .ok s' ∧ s'.trace = s.trace ++ t ∧
        ∀ p ∈ t, Right c .fields p.2 ∧ Right c .message p.2 := by
  induction os with
  | nil => intro s _ _; exact ⟨s, [], rfl, by simp, by simp⟩
  | cons o os ih =>
    intro s hB hA
    cases o with
    | read n => exact absurd ho (by simp [Proper])
    | refine =>
      obtain ⟨s', t, h1, h2, h3⟩ := ih ho (monRefine c s) ⟨hB.1, hB.2.1, Or.inl ⟨rfl, rfl⟩⟩
        (fun _ h => by simp [monRefine] at h)
      exact ⟨s', t, by rw [monRun]; simp only [monOp]; exact h1, h2, h3⟩
    | advance n fin =>
      obtain ⟨hn, hf, ho'⟩ := ho
      obtain ⟨s1, L, e, b1, b2, b3, b4, b5, b6⟩ := between_advance alloc c hc s hB (hA (by simp)) n fin
      obtain ⟨s', t, h1, h2, h3⟩ := ih ho' s1 b1 (fun hne => b2 (fun hb => by
        cases fin with
        | false => rfl
        | true => exact absurd (hf hb rfl) hne))
      refine ⟨s', ((List.range (n + 1)).map fun k => (s.step + k, L)) ++ t, ?_, ?_, ?_⟩
      · rw [monRun]; simp only [monOp]; rw [e]; exact h1
      · rw [h2, b3, List.append_assoc]
      · intro p hp
        rcases List.mem_append.1 hp with h | h
        · obtain ⟨k, _, rfl⟩ := List.mem_map.1 h
          exact ⟨b5, b6⟩
        · exact h3 p h

/-- C93 for refined runs: however often the mesh is refined after the first `RDyAdvance`, fields and
messages are looked after exactly once for every step that is reported, if they are asked for, and no
freed viewer is used.

Missing from the full property: checkpoints and time series, see `C93_refine_violated`, and refinement
before the first `RDyAdvance`, see `C93_refine_first_violated`. -/
theorem C93_refine_partial (alloc : ℕ → ℕ) (c : MonCfg) (hc : c.Ok) (n : ℕ) (fin : Bool) (os : List RunOp)
    (ho : Proper c (.advance n fin :: os)) :
    ∃ s, monRun alloc c (monSetup c .none) (.advance n fin :: os) = .ok s ∧
      ∀ p ∈ s.trace, Right c .fields p.2 ∧ Right c .message p.2 := by
  obtain ⟨hn, hf, ho'⟩ := ho
  obtain ⟨s, a, e, h1, h2, h3, h4, h5, h6⟩ := first_advance alloc c hc n fin
  have hB : Between c s := ⟨by omega, by rw [h3, h2]; omega, Or.inr ⟨h4, ckMons c, srMons c, a, h1, ck_none c, sr_none c⟩⟩
  have hA : os ≠ [] → Alive c s := by
    intro hne _ X' Y' a' hts hX' hY' hb
    have hfin : fin = false := by
      cases fin with
      | false => rfl
      | true => exact absurd (hf hb rfl) hne
    have ha : a = a' := outMons_inj c a a' _ X' _ Y' (h1.symm.trans hts) hX' hY' hb
    rw [← ha]
    exact h5 hfin hb
  obtain ⟨s', t, k1, k2, k3⟩ := between_run alloc c hc os ho' s hB hA
  refine ⟨s', ?_, ?_⟩
  · rw [monRun]; simp only [monOp]; rw [e]; exact k1
  · rw [k2, h6]
    intro p hp
    rcases List.mem_append.1 hp with h | h
    · obtain ⟨k, _, rfl⟩ := List.mem_map.1 h
      exact ⟨right_all c hc a _, right_all c hc a _⟩
    · exact k3 p h

example : Proper exMon [.advance 2 false, .refine, .advance 1 false, .refine, .refine, .advance 3 true] := by
  simp [Proper]

example : ∃ s, monRun (fun k => 10 + k) exMon (monSetup exMon .none)
      [.advance 1 false, .refine, .advance 1 false, .refine, .refine, .advance 1 true] = .ok s ∧
    s.trace = [(0, [.checkpoint, .log, .solution (some 10), .series]),
      (1, [.checkpoint, .log, .solution (some 10), .series]),
      (1, [.log, .solution (some 11)]), (2, [.log, .solution (some 11)]),
      (2, [.log, .solution (some 12)]), (3, [.log, .solution (some 12)])] := by
  refine ⟨_, rfl, ?_⟩
  decide

/-! ## Freed viewers -/

/-- C93 fails with binary output when `RDyAdvance` is called after the end of the run has been reached:
the monitor uses the viewer that was destroyed at the end. -/
theorem C93_after_end_violated (alloc : ℕ → ℕ) (c : MonCfg) (hc : c.Ok) (hb : c.format = .binary) (n m : ℕ)
    (hn : 0 < n) (fin : Bool) :
    monRun alloc c (monSetup c .none) [.advance n true, .advance m fin] = .ub := by
  obtain ⟨r1, r2, r3, r4, r5, r6⟩ := setup_rest c
  obtain ⟨s, a, e, h1, h2, h3, h4, h5, h6⟩ := first_advance alloc c hc n true
  have hvf : s.vf = none := by
    unfold monAdvance solveMons at e
    split at e
    · simp only [Res.ok.injEq] at e
      rw [← e]
      simp
    · simp at e
  have e2 : monAdvance alloc c m fin s = .ub := by
    rw [monAdvance_calm alloc c m fin s (by omega) (by rw [h3, h2]; omega) h4]
    unfold solveMons
    rw [if_neg]
    intro h
    have hm : Mon.solution a ∈ s.ts := by rw [h1]; simp [allMons, outMons, hb]
    obtain ⟨g1, g2⟩ := h _ hm
    rw [g2, hvf] at g1
    simp at g1
  rw [monRun]
  simp only [monOp]
  rw [e]
  simp only [monRun, monOp]
  rw [e2]

example : monRun (fun k => k) exMon (monSetup exMon .none) [.advance 2 true, .advance 1 true] = .ub :=
  C93_after_end_violated _ _ exMon_ok rfl 2 1 (by decide) true

theorem monitorSet_mem (m : Mon) (s : MonState) (h : m ∈ s.ts) : monitorSet m s = s := by
  unfold monitorSet; rw [if_pos h]

theorem monitorSet_vf (m : Mon) (s : MonState) : (monitorSet m s).vf = s.vf := by
  unfold monitorSet; split <;> rfl

theorem setLog_vf (c : MonCfg) (s : MonState) : (setLog c s).vf = s.vf := by
  unfold setLog; split
  · exact monitorSet_vf _ _
  · rfl

theorem setLog_mem (c : MonCfg) (s : MonState) (h : c.detail = true → Mon.log ∈ s.ts) : setLog c s = s := by
  unfold setLog; split
  · rename_i hd; exact monitorSet_mem _ _ (h hd)
  · rfl

theorem makeViewer_vf (alloc : ℕ → ℕ) (c : MonCfg) (s : MonState) (h : c.format = .binary) :
    (makeViewer alloc c s).vf = some (alloc s.made) := by
  unfold makeViewer; rw [if_pos (Or.inr (Or.inl h))]

/-- Output is set up a second time. -/
theorem createViewer_again (alloc : ℕ → ℕ) (c : MonCfg) (hc : c.Ok) (s : MonState) (a : Option ℕ) (X Y : List Mon)
    (hts : s.ts = initSolverMons c ++ X ++ outMons c a ++ Y)
    (hX : ∀ m ∈ X, m = .checkpoint) (hY : ∀ m ∈ Y, m = .series) :
    ((c.format = .binary → a = some (alloc s.made)) → (createViewer alloc c s).ts = s.ts ∧ VfOk c (createViewer alloc c s) a) ∧
    (c.format = .binary → a ≠ some (alloc s.made) → ∃ m ∈ (createViewer alloc c s).ts, ¬ callable c (createViewer alloc c s) m) := by
  have h1 : c.format = .xdmf → Mon.xdmf ∈ s.ts := by
    intro h; rw [hts]; simp [outMons, h]
  have h2 : c.detail = true → c.format = .cgns ∨ c.format = .binary → Mon.log ∈ s.ts := by
    intro hd h; rw [hts]; rcases h with h | h <;> simp [outMons, h, hd]
  have h3 : c.format = .binary → Mon.solution a ∈ s.ts := by
    intro h; rw [hts]; simp [outMons, h]
  have h4 : ∀ b, c.format = .binary → Mon.solution b ∈ s.ts → a = b := by
    intro b hb hm
    rw [hts] at hm
    simp only [List.mem_append] at hm
    rcases hm with ((h' | h') | h') | h'
    · have := sv_none c _ h'; cases this
    · have := hX _ h'; cases this
    · simp only [outMons, hb, List.mem_append] at h'
      rcases h' with h' | h'
      · split at h' <;> simp at h'
      · simp at h'; exact h'.symm
    · have := hY _ h'; cases this
  have he := hc.enable
  constructor
  · intro ha
    have hmv : createViewer alloc c s = s ∨ createViewer alloc c s = makeViewer alloc c s := by
      unfold createViewer
      by_cases hen : c.enable = true
      · rw [if_pos hen]
        right
        split <;> rename_i hfm
        · exact monitorSet_mem _ _ (by rw [makeViewer_ts]; exact h1 hfm)
        · exact setLog_mem c _ (fun hd => by rw [makeViewer_ts]; exact h2 hd (Or.inl hfm))
        · rw [setLog_mem c _ (fun hd => by rw [makeViewer_ts]; exact h2 hd (Or.inr hfm))]
          refine monitorSet_mem _ _ ?_
          rw [makeViewer_vf alloc c s hfm, makeViewer_ts, ← ha hfm]
          exact h3 hfm
        · exact absurd hfm (he.1 hen)
      · rw [if_neg hen]
        exact Or.inl rfl
    refine ⟨?_, ?_⟩
    · rcases hmv with h | h <;> rw [h]
      exact makeViewer_ts alloc c s
    · intro hb
      have hen : c.enable = true := he.2 (by rw [hb]; decide)
      have hvf : (createViewer alloc c s).vf = some (alloc s.made) := by
        unfold createViewer
        rw [if_pos hen]
        simp only [hb]
        rw [monitorSet_vf, setLog_vf, makeViewer_vf alloc c s hb]
      rw [hvf, ha hb]
      exact ⟨rfl, rfl⟩
  · intro hb ha
    refine ⟨.solution a, ?_, ?_⟩
    · obtain ⟨e, f, i, d, o, k, b, ob⟩ := c
      simp only at hb
      subst hb
      simp at he h3 h2
      subst he
      unfold createViewer
      simp only [if_true]
      have l : ∀ (m m' : Mon) (s : MonState), m ∈ s.ts → m ∈ (monitorSet m' s).ts := by
        intro m m' s h
        unfold monitorSet
        split <;> simp_all
      apply l
      unfold setLog
      split
      · apply l; rw [makeViewer_ts]; exact h3
      · rw [makeViewer_ts]; exact h3
    · have hvf : (createViewer alloc c s).vf = some (alloc s.made) := by
        have hen : c.enable = true := he.2 (by rw [hb]; decide)
        unfold createViewer
        rw [if_pos hen]
        simp only [hb]
        rw [monitorSet_vf, setLog_vf, makeViewer_vf alloc c s hb]
      unfold callable
      rw [hvf]
      exact fun h => ha h.2

/-- The state of a run that takes its initial values from a checkpoint and starts at step 0. -/
theorem reinit_rest (c : MonCfg) (r : Restart) (hr : r = .continued 0 ∨ ∃ k, r = .reinitialized k) :
    (monSetup c r).ts = initSolverMons c ++ ckMons c ∧ (monSetup c r).step = 0 ∧
    (monSetup c r).isRestart = true ∧ (monSetup c r).restartStep = 0 ∧
    (monSetup c r).refined = false ∧ (monSetup c r).trace = [] ∧ (monSetup c r).made = 0 := by
  obtain ⟨h0, h1, h2, h3, h4, h5, h6, h7⟩ :=
    initCheckpoints_ts c ⟨initSolverMons c, false, Option.none, 0, 0, true, 0, false, []⟩ rfl
  rcases hr with rfl | ⟨k, rfl⟩
  · exact ⟨h0, rfl, h2, rfl, h4, h5, h7⟩
  · exact ⟨h0, h1, h2, rfl, h4, h5, h7⟩

theorem startMons_made (alloc : ℕ → ℕ) (c : MonCfg) (hb : c.format = .binary) (hc : c.Ok) (s : MonState)
    (h0 : s.step = 0) : (startMons alloc c s).made = s.made + 1 := by
  have hen : c.enable = true := hc.enable.2 (by rw [hb]; decide)
  have g : ∀ (m : Mon) (t : MonState), (monitorSet m t).made = t.made := by
    intro m t; unfold monitorSet; split <;> rfl
  have g2 : (initSeries c (createViewer alloc c s)).made = (createViewer alloc c s).made := by
    unfold initSeries; split
    · exact g _ _
    · rfl
  have g3 : ∀ t, (setLog c t).made = t.made := by
    intro t; unfold setLog; split
    · exact g _ _
    · rfl
  unfold startMons
  rw [if_pos h0, g2]
  unfold createViewer
  rw [if_pos hen]
  simp only [hb]
  rw [g, g3]
  unfold makeViewer
  rw [if_pos (Or.inr (Or.inl hb))]

/-- C93 for a run that takes its initial values from a checkpoint and starts at step 0
(`restart.reinitialize`, or a checkpoint of step 0): output is set up twice, and yet everything is looked
after exactly once — except for binary output, if the allocator gives the second viewer another address
than the first, see `C93_reinitialize_violated`. -/
theorem C93_reinitialize_partial (alloc : ℕ → ℕ) (c : MonCfg) (hc : c.Ok) (r : Restart)
    (hr : r = .continued 0 ∨ ∃ k, r = .reinitialized k) (hb : c.format = .binary → alloc 0 = alloc 1)
    (ns : List (ℕ × Bool)) (hn : ∀ x ∈ ns, 0 < x.1) (hf : c.format = .binary → ∀ x ∈ ns.dropLast, x.2 = false) :
    ∃ s, monRun alloc c (monSetup c r) (ns.map fun x => .advance x.1 x.2) = .ok s ∧
      s.trace.map Prod.fst = reported 0 (ns.map Prod.fst) ∧ ∀ p ∈ s.trace, ∀ w, Right c w p.2 := by
  obtain ⟨r0, r1, r2, r3, r4, r5, r6⟩ := reinit_rest c r hr
  cases ns with
  | nil => exact ⟨_, rfl, by rw [r5]; rfl, by rw [r5]; simp⟩
  | cons x ns =>
    obtain ⟨n, fin⟩ := x
    have hn0 : 0 < n := hn (n, fin) (by simp)
    obtain ⟨t1, t2, t3, t4, t5, t6, t7⟩ := startMons_zero alloc c hc (monSetup c r) r1
      (by rw [r0]; exact quiet_setup c)
      (by
        rw [r0]
        intro hm
        rcases List.mem_append.1 hm with h | h
        · have := sv_none c _ h; cases this
        · have := ck_none c _ h; cases this)
    rw [r0] at t1
    obtain ⟨e1, e2, e3, e4, e5⟩ := createViewer_same alloc c (startMons alloc c (monSetup c r))
    obtain ⟨k1, k2⟩ := (createViewer_again alloc c hc (startMons alloc c (monSetup c r)) _ _ _ t1
      (ck_none c) (sr_none c)).1 (fun h => by
        rw [startMons_made alloc c h hc _ r1, r6, hb h])
    rw [t1] at k1
    have e : monAdvance alloc c n fin (monSetup c r)
        = solveMons c n fin (createViewer alloc c (startMons alloc c (monSetup c r))) := by
      unfold monAdvance restartMons
      rw [if_pos ⟨by rw [t4, r2], by rw [t5, r3, t3]; rfl⟩]
      unfold refinedMons
      rw [if_neg (by rw [e4, t6, r4]; simp)]
    rw [solveMons_ok c n fin _ (by rw [k1]; exact allMons_callable c hc _ _ k2)] at e
    obtain ⟨s', hr', ht⟩ := later_advances alloc c (some (alloc (monSetup c r).made)) _
      (fun t => allMons_callable c hc t _) ns (fun y hy => hn y (List.mem_cons_of_mem _ hy))
      (fun hb' y hy => by
        refine hf hb' y ?_
        cases ns with
        | nil => simp at hy
        | cons z zs => rw [List.dropLast_cons_of_ne_nil (by simp)]; exact List.mem_cons_of_mem _ hy)
      { createViewer alloc c (startMons alloc c (monSetup c r)) with
        step := (createViewer alloc c (startMons alloc c (monSetup c r))).step + n
        trace := (createViewer alloc c (startMons alloc c (monSetup c r))).trace ++
          (List.range (n + 1)).map fun k => ((createViewer alloc c (startMons alloc c (monSetup c r))).step + k,
            (createViewer alloc c (startMons alloc c (monSetup c r))).ts)
        vf := if fin = true then Option.none else (createViewer alloc c (startMons alloc c (monSetup c r))).vf
        viewer := if fin = true then false else (createViewer alloc c (startMons alloc c (monSetup c r))).viewer }
      k1 (by simp only; omega) (by simp only [e3, t5, r3, e1, t3]; push_cast; omega) (e4.trans (t6.trans r4))
      (by
        intro hne hb'
        have hfin : fin = false := hf hb' (n, fin) (by
          rw [List.dropLast_cons_of_ne_nil hne]; exact List.mem_cons_self ..)
        simp only [hfin, Bool.false_eq_true, if_false]
        exact k2 hb')
    refine ⟨s', ?_, ?_, ?_⟩
    · rw [List.map_cons, monRun]
      simp only [monOp]
      rw [e]
      exact hr'
    · rw [ht]
      simp only [e5, t7, r5, e1, t3, List.map_append, List.map_map, List.map_cons, reported, List.nil_append]
      simp [Function.comp_def]
    · rw [ht]
      simp only [e5, t7, r5, e1, t3, k1, List.nil_append]
      intro p hp w
      rcases List.mem_append.1 hp with h | h
      · obtain ⟨k, _, rfl⟩ := List.mem_map.1 h
        exact right_all c hc _ w
      · obtain ⟨k, _, rfl⟩ := List.mem_map.1 h
        exact right_all c hc _ w

example : ∃ s, monRun (fun _ => 10) exMon (monSetup exMon (.reinitialized 4)) [.advance 2 false, .advance 1 true]
      = .ok s ∧
    s.trace = [0, 1, 2, 2, 3].map fun k => (k, [.checkpoint, .log, .solution (some 10), .series]) := by
  refine ⟨_, rfl, ?_⟩
  decide

/-- C93 fails with binary output when a run takes its initial values from a checkpoint and starts at step 0:
the first `RDyAdvance` sets output up twice; unless the allocator gives the second viewer the address of the
first, which has just been freed, the first registration remains and the first solve uses freed memory. -/
theorem C93_reinitialize_violated (alloc : ℕ → ℕ) (c : MonCfg) (hc : c.Ok) (hb : c.format = .binary) (r : Restart)
    (hr : r = .continued 0 ∨ ∃ k, r = .reinitialized k) (ha : alloc 0 ≠ alloc 1) (n : ℕ) (fin : Bool) :
    monRun alloc c (monSetup c r) [.advance n fin] = .ub := by
  obtain ⟨r0, r1, r2, r3, r4, r5, r6⟩ := reinit_rest c r hr
  obtain ⟨t1, t2, t3, t4, t5, t6, t7⟩ := startMons_zero alloc c hc (monSetup c r) r1
    (by rw [r0]; exact quiet_setup c)
    (by
      rw [r0]
      intro hm
      rcases List.mem_append.1 hm with h | h
      · have := sv_none c _ h; cases this
      · have := ck_none c _ h; cases this)
  rw [r0] at t1
  obtain ⟨e1, e2, e3, e4, e5⟩ := createViewer_same alloc c (startMons alloc c (monSetup c r))
  obtain ⟨m, hm, hm'⟩ := (createViewer_again alloc c hc (startMons alloc c (monSetup c r)) _ _ _ t1
    (ck_none c) (sr_none c)).2 hb (by
      rw [startMons_made alloc c hb hc _ r1, r6]
      simpa using ha)
  have e : monAdvance alloc c n fin (monSetup c r) = .ub := by
    unfold monAdvance restartMons
    rw [if_pos ⟨by rw [t4, r2], by rw [t5, r3, t3]; rfl⟩]
    unfold refinedMons
    rw [if_neg (by rw [e4, t6, r4]; simp)]
    unfold solveMons
    rw [if_neg (fun h => hm' (h m hm))]
  rw [monRun]
  simp only [monOp]
  rw [e]

example : monRun (fun k => k) exMon (monSetup exMon (.reinitialized 4)) [.advance 2 false] = .ub :=
  C93_reinitialize_violated _ _ exMon_ok rfl _ (Or.inr ⟨4, rfl⟩) (by decide) 2 false

/-- C93 fails where the mesh is refined before the first `RDyAdvance`, as `driver/amr.c` does when it is given a
dataset: checkpoints are not written, and with binary output the first solve uses freed memory unless the
allocator gives the address of the first viewer again. -/
theorem C93_refine_first_violated (alloc : ℕ → ℕ) (c : MonCfg) (hc : c.Ok) (n : ℕ) (fin : Bool) :
    (c.format = .binary → alloc 0 ≠ alloc 1 →
      monRun alloc c (monSetup c .none) [.refine, .advance n fin] = .ub) ∧
    ((c.format = .binary → alloc 0 = alloc 1) →
      ∃ s, monRun alloc c (monSetup c .none) [.refine, .advance n fin] = .ok s ∧ s.trace ≠ [] ∧
        ∀ p ∈ s.trace, written .checkpoint p.2 = 0) := by
  obtain ⟨r1, r2, r3, r4, r5, r6⟩ := setup_rest c
  have rm : (monSetup c .none).made = 0 :=
    (initCheckpoints_ts c ⟨initSolverMons c, false, Option.none, 0, 0, false, -1, false, []⟩ rfl).2.2.2.2.2.2.2
  obtain ⟨t1, t2, t3, t4, t5, t6, t7⟩ := startMons_zero alloc c hc (monRefine c (monSetup c .none)) r1
    (by
      intro m hm
      exact quiet_setup c m (List.mem_append_left _ hm))
    (by
      intro hm
      have := sv_none c _ hm
      cases this)
  have t1' : (startMons alloc c (monRefine c (monSetup c .none))).ts
      = initSolverMons c ++ [] ++ outMons c (some (alloc (monSetup c .none).made)) ++ srMons c := by
    rw [t1, List.append_nil]; rfl
  obtain ⟨e1, e2, e3, e4, e5⟩ := createViewer_same alloc c (startMons alloc c (monRefine c (monSetup c .none)))
  obtain ⟨a1, a2⟩ := createViewer_again alloc c hc (startMons alloc c (monRefine c (monSetup c .none))) _ _ _ t1'
    (by simp) (sr_none c)
  have e : monAdvance alloc c n fin (monRefine c (monSetup c .none)) = solveMons c n fin
      { createViewer alloc c (startMons alloc c (monRefine c (monSetup c .none))) with refined := false } := by
    unfold monAdvance restartMons
    rw [if_neg (by rw [t4]; rintro ⟨h, _⟩; simp [monRefine, r2] at h)]
    unfold refinedMons
    rw [if_pos (by rw [t6]; rfl)]
  refine ⟨fun hb ha => ?_, fun ha => ?_⟩
  · obtain ⟨m, hm, hm'⟩ := a2 hb (by
      rw [startMons_made alloc c hb hc (monRefine c (monSetup c .none)) r1]
      simp only [monRefine, rm]
      simpa using ha)
    have e' : monAdvance alloc c n fin (monRefine c (monSetup c .none)) = .ub := by
      rw [e]
      unfold solveMons
      rw [if_neg (fun h => hm' (h m hm))]
    simp only [monRun, monOp]
    rw [e']
  · obtain ⟨k1, k2⟩ := a1 (fun hb => by
      rw [startMons_made alloc c hb hc (monRefine c (monSetup c .none)) r1]
      simp only [monRefine, rm]
      rw [ha hb])
    rw [t1'] at k1
    rw [solveMons_ok c n fin _ (by
      simp only [k1]
      exact mons_callable c hc _ _ _ _ (by simp) (sr_none c) k2)] at e
    refine ⟨_, by simp only [monRun, monOp]; rw [e], ?_, ?_⟩
    · simp
    · simp only [e5, t7, k1]
      intro p hp
      rcases List.mem_append.1 hp with h | h
      · simp [monRefine, r5] at h
      · obtain ⟨k, _, rfl⟩ := List.mem_map.1 h
        simp only [written_append, written_sv c .checkpoint (by decide), written_out c _ .checkpoint (Or.inl rfl),
          written_none .checkpoint (srMons c) (fun m hm => by rw [sr_none c m hm]; simp [Mon.writes])]
        rfl

example : monRun (fun k => k) exMon (monSetup exMon .none) [.refine, .advance 2 false] = .ub ∧
    ∃ s, monRun (fun _ => 5) exMon (monSetup exMon .none) [.refine, .advance 1 false] = .ok s ∧
      s.trace = [0, 1].map fun k => (k, [.log, .solution (some 5), .series]) := by
  refine ⟨(C93_refine_first_violated _ _ exMon_ok 2 false).1 rfl (by decide), _, rfl, ?_⟩
  decide

end RDy
