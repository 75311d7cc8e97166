import Verif.Model.Conditions

/-!
C102: the names in a configuration are resolved or the configuration is refused, and what is accepted is evaluated.
-/

namespace RDy

/-- Specification: `c` is the first condition called `nm`. -/
def NamedBy (conds : List Cond) (nm : Str) (c : Cond) : Prop :=
  ∃ pre post, conds = pre ++ c :: post ∧ c.name = nm ∧ ∀ d ∈ pre, d.name ≠ nm

/-- Specification: `s` is the first specification for the region called `nm`. -/
def FirstFor (specs : List RegSpec) (nm : Str) (s : RegSpec) : Prop :=
  ∃ pre post, specs = pre ++ s :: post ∧ s.region = nm ∧ ∀ d ∈ pre, d.region ≠ nm

private theorem find_some {α : Type} (l : List α) (key : α → Str) (nm : Str) (a : α) :
    l.find? (fun x => key x = nm) = some a ↔ ∃ pre post, l = pre ++ a :: post ∧ key a = nm ∧ ∀ d ∈ pre, key d ≠ nm := by
  rw [List.find?_eq_some_iff_append]
  constructor
  · rintro ⟨h, pre, post, e, hp⟩
    exact ⟨pre, post, e, by simpa using h, fun d hd => by simpa using hp d hd⟩
  · rintro ⟨pre, post, e, h, hp⟩
    exact ⟨by simpa using h, pre, post, e, fun d hd => by simpa using hp d hd⟩

private theorem findCond_iff (conds : List Cond) (nm : Str) (c : Cond) :
    findCond conds nm = some c ↔ NamedBy conds nm c := find_some conds Cond.name nm c

private theorem regSpecOf_iff (specs : List RegSpec) (nm : Str) (s : RegSpec) :
    regSpecOf specs nm = some s ↔ FirstFor specs nm s := find_some specs RegSpec.region nm s

/-- Two conditions that are both the first of their name are the same. -/
theorem NamedBy.unique {conds : List Cond} {nm : Str} {c d : Cond} (h : NamedBy conds nm c) (k : NamedBy conds nm d) :
    c = d := by
  rw [← findCond_iff] at h k
  rw [h] at k
  exact Option.some.inj k

/-- Two specifications that are both the first for the region are the same. -/
theorem FirstFor.unique {specs : List RegSpec} {nm : Str} {s t : RegSpec} (h : FirstFor specs nm s)
    (k : FirstFor specs nm t) : s = t := by
  rw [← regSpecOf_iff] at h k
  rw [h] at k
  exact Option.some.inj k

/-! ### Regions -/

/-- C102 (regions). A mesh without cell sets or with more than 32 of them is refused. Otherwise there is one region
for each cell set, in the same order, with its ID and its cells; its name is that of the first region of the
configuration with that ID, or empty if there is none. -/
theorem C102_regions (sets : List CellSet) (cfg : List RegionSpec) :
    initRegions none cfg = .error ∧
    (32 < sets.length → initRegions (some sets) cfg = .error) ∧
    (sets.length ≤ 32 → ∃ rs, initRegions (some sets) cfg = .ok rs ∧ rs.length = sets.length ∧
      ∀ (i : ℕ) (s : CellSet) (r : Region), sets[i]? = some s → rs[i]? = some r →
        r.id = s.id ∧ r.cells = s.cells ∧
        (∀ (pre : List RegionSpec) (a : RegionSpec) (post : List RegionSpec), cfg = pre ++ a :: post →
          a.gridId = s.id → (∀ b ∈ pre, b.gridId ≠ s.id) → r.name = a.name) ∧
        ((∀ a ∈ cfg, a.gridId ≠ s.id) → r.name = [])) := by
  refine ⟨rfl, ?_, ?_⟩
  · intro h
    unfold initRegions
    dsimp only
    rw [if_pos h]
  · intro h
    refine ⟨sets.map fun s => ⟨regionNameOf cfg s.id, s.id, s.cells⟩, ?_, by simp, ?_⟩
    · unfold initRegions
      dsimp only
      rw [if_neg (by omega)]
    · intro i s r hs hr
      rw [List.getElem?_map, hs] at hr
      simp only [Option.map_some, Option.some.injEq] at hr
      subst hr
      refine ⟨rfl, rfl, ?_, ?_⟩
      · intro pre a post e ha hp
        have : cfg.find? (fun s' => s'.gridId = s.id) = some a := by
          rw [List.find?_eq_some_iff_append]
          exact ⟨by simpa using ha, pre, post, e, fun b hb => by simpa using hp b hb⟩
        show regionNameOf cfg s.id = a.name
        unfold regionNameOf
        rw [this]
      · intro hn
        have : cfg.find? (fun s' => s'.gridId = s.id) = none := by
          rw [List.find?_eq_none]
          intro b hb
          simpa using hn b hb
        show regionNameOf cfg s.id = []
        unfold regionNameOf
        rw [this]

/-- Two cell sets, 5 and 7; the configuration calls 7 "land" (and, later, also "sea"). -/
example : ∃ rs, initRegions (some [⟨5, [0]⟩, ⟨7, [1, 2]⟩]) [⟨['l'], 7⟩, ⟨['s'], 7⟩] = .ok rs ∧
    (rs.map Region.name) = [[], ['l']] := by
  obtain ⟨rs, h, hl, hr⟩ := (C102_regions [⟨5, [0]⟩, ⟨7, [1, 2]⟩] [⟨['l'], 7⟩, ⟨['s'], 7⟩]).2.2 (by simp)
  match rs, hl with
  | [a, b], _ =>
    refine ⟨[a, b], h, ?_⟩
    have h0 := (hr 0 ⟨5, [0]⟩ a rfl rfl).2.2.2 (by simp)
    have h1 := (hr 1 ⟨7, [1, 2]⟩ b rfl rfl).2.2.1 [] ⟨['l'], 7⟩ [⟨['s'], 7⟩] rfl rfl (by simp)
    simp [h0, h1]

/-- C102 is violated for regions: a region of the configuration whose ID does not occur in the mesh is not reported;
set-up goes on as if it were not there. (A boundary whose ID does not occur in the mesh is refused.) -/
theorem C102_absent_region_violated (sets : List CellSet) (cfg : List RegionSpec) (s : RegionSpec)
    (hs : ∀ c ∈ sets, c.id ≠ s.gridId) :
    initRegions (some sets) (cfg ++ [s]) = initRegions (some sets) cfg ∧
    initRegions (some sets) (s :: cfg) = initRegions (some sets) cfg ∧
    ∀ (m : EdgeMesh) (be : List ℕ) (label : List FaceSet) (inFile : ℤ → Bool) (ids : List ℤ), inFile s.gridId = false →
      s.gridId ∈ ids → initBoundaries m be label inFile ids = .error := by
  have hname : ∀ c ∈ sets, regionNameOf (cfg ++ [s]) c.id = regionNameOf cfg c.id := by
    intro c hc
    unfold regionNameOf
    have : [s].find? (fun s' => decide (s'.gridId = c.id)) = none := by
      rw [List.find?_eq_none]
      intro b hb
      rw [List.mem_singleton] at hb
      subst hb
      simpa using fun h => hs c hc h.symm
    rw [List.find?_append, this, Option.or_none]
  have hname' : ∀ c ∈ sets, regionNameOf (s :: cfg) c.id = regionNameOf cfg c.id := by
    intro c hc
    unfold regionNameOf
    rw [List.find?_cons_of_neg (by simpa using fun h => hs c hc h.symm)]
  refine ⟨?_, ?_, ?_⟩
  · unfold initRegions
    dsimp only
    have : sets.map (fun s' => (⟨regionNameOf (cfg ++ [s]) s'.id, s'.id, s'.cells⟩ : Region))
        = sets.map (fun s' => (⟨regionNameOf cfg s'.id, s'.id, s'.cells⟩ : Region)) :=
      List.map_congr_left fun c hc => by rw [hname c hc]
    rw [this]
  · unfold initRegions
    dsimp only
    have : sets.map (fun s' => (⟨regionNameOf (s :: cfg) s'.id, s'.id, s'.cells⟩ : Region))
        = sets.map (fun s' => (⟨regionNameOf cfg s'.id, s'.id, s'.cells⟩ : Region)) :=
      List.map_congr_left fun c hc => by rw [hname' c hc]
    rw [this]
  · intro m be label inFile ids hin hid
    unfold initBoundaries
    by_cases h : label.length > 32
    · rw [if_pos h]
    · rw [if_neg h, if_pos]
      rw [List.any_eq_true]
      exact ⟨s.gridId, hid, by simp [hin]⟩

example : initRegions (some [⟨5, [0]⟩]) ([⟨['l'], 5⟩] ++ [⟨['s'], 6⟩]) = initRegions (some [⟨5, [0]⟩]) [⟨['l'], 5⟩] :=
  (C102_absent_region_violated [⟨5, [0]⟩] [⟨['l'], 5⟩] ⟨['s'], 6⟩ (by simp)).1

/-! ### Initial conditions -/

/-- Specification: the initial condition `c` that a tracer has if its table is `conds`, it is on or off, and the
specification names `nm`. -/
def TracerIc (conds : List Cond) (on checked : Prop) (nm : Str) (c : Option Cond) : Prop :=
  (on → ∃ k, NamedBy conds nm k ∧ (checked → k.type = .dirichlet) ∧ nm ≠ [] ∧ c = some k) ∧ (¬ on → c = none)

/-- Specification: `c` is what the configuration says about the initial state of the region called `nm`. -/
def IcFor (t : CondTables) (specs : List RegSpec) (nm : Str) (c : RegCond) : Prop :=
  ∃ s, FirstFor specs nm s ∧
    (∃ f, NamedBy t.flow s.flow f ∧ f.type = .dirichlet ∧ s.flow ≠ [] ∧ c.flow = some f) ∧
    TracerIc t.sediment (0 < t.numClasses) True s.sediment c.sediment ∧
    TracerIc t.salinity (t.salinityOn = true) True s.salinity c.salinity ∧
    TracerIc t.temperature (t.heatOn = true) False s.temperature c.temperature

/-- The tracer conditions that are needed and named exist. -/
def TracerNamesExist (t : CondTables) (specs : List RegSpec) : Prop :=
  ∀ s ∈ specs,
    (0 < t.numClasses → s.sediment ≠ [] → ∃ c ∈ t.sediment, c.name = s.sediment) ∧
    (t.salinityOn = true → s.salinity ≠ [] → ∃ c ∈ t.salinity, c.name = s.salinity) ∧
    (t.heatOn = true → s.temperature ≠ [] → ∃ c ∈ t.temperature, c.name = s.temperature)

private theorem icFlow_iff (t : CondTables) (s : RegSpec) (f : Cond) :
    icFlow t s = .ok f ↔ NamedBy t.flow s.flow f ∧ f.type = .dirichlet ∧ s.flow ≠ [] := by
  unfold icFlow
  by_cases he : s.flow = []
  · rw [if_pos he]
    exact ⟨fun h => (by cases h), fun h => absurd he h.2.2⟩
  · rw [if_neg he]
    cases hf : findCond t.flow s.flow with
    | none =>
      refine ⟨fun h => (by cases h), fun h => ?_⟩
      rw [← findCond_iff, hf] at h
      cases h.1
    | some c =>
      rw [findCond_iff] at hf
      dsimp only
      by_cases hd : c.type = .dirichlet
      · rw [if_pos hd]
        constructor
        · intro h
          cases h
          exact ⟨hf, hd, he⟩
        · intro h
          rw [hf.unique h.1]
      · rw [if_neg hd]
        refine ⟨fun h => (by cases h), fun h => ?_⟩
        rw [← hf.unique h.1] at h
        exact absurd h.2.1 hd

private theorem icFlow_ne_ub (t : CondTables) (s : RegSpec) : icFlow t s ≠ .ub := by
  unfold icFlow
  split_ifs
  · simp
  · split
    · simp
    · split_ifs <;> simp

private theorem icTracer_iff (conds : List Cond) (on chk : Bool) (nm : Str) (c : Option Cond) :
    icTracer conds on chk nm = .ok c ↔ TracerIc conds (on = true) (chk = true) nm c := by
  unfold icTracer TracerIc
  cases on with
  | false =>
    simp only [Bool.false_eq_true, if_false, not_false_eq_true, forall_const, IsEmpty.forall_iff, true_and]
    constructor
    · intro h; cases h; rfl
    · rintro rfl; rfl
  | true =>
    simp only [if_true, not_true_eq_false, IsEmpty.forall_iff, and_true, forall_const]
    by_cases he : nm = []
    · rw [if_pos he]
      exact ⟨fun h => (by cases h), fun ⟨k, _, _, h, _⟩ => absurd he h⟩
    · rw [if_neg he]
      cases hf : findCond conds nm with
      | none =>
        refine ⟨fun h => (by cases h), fun ⟨k, h, _⟩ => ?_⟩
        rw [← findCond_iff, hf] at h
        cases h
      | some d =>
        rw [findCond_iff] at hf
        dsimp only
        by_cases hd : (chk && decide (d.type ≠ .dirichlet)) = true
        · rw [if_pos hd]
          refine ⟨fun h => (by cases h), fun ⟨k, h, hk, _⟩ => ?_⟩
          rw [Bool.and_eq_true, decide_eq_true_eq] at hd
          exact absurd (by rw [hf.unique h]; exact hk hd.1) hd.2
        · rw [if_neg hd]
          constructor
          · intro h
            cases h
            refine ⟨d, hf, fun hc => ?_, he, rfl⟩
            by_contra hne
            exact hd (by rw [Bool.and_eq_true, decide_eq_true_eq]; exact ⟨hc, hne⟩)
          · rintro ⟨k, h, _, _, rfl⟩
            rw [hf.unique h]

private theorem icTracer_ne_ub (conds : List Cond) (on chk : Bool) (nm : Str)
    (h : on = true → nm ≠ [] → ∃ c ∈ conds, c.name = nm) : icTracer conds on chk nm ≠ .ub := by
  unfold icTracer
  by_cases ho : on = true
  · rw [if_pos ho]
    by_cases he : nm = []
    · rw [if_pos he]; simp
    · rw [if_neg he]
      obtain ⟨c, hc, hn⟩ := h ho he
      cases hf : findCond conds nm with
      | none =>
        unfold findCond at hf
        rw [List.find?_eq_none] at hf
        exact absurd hn (by simpa using hf c hc)
      | some d =>
        dsimp only
        split_ifs <;> simp
  · rw [if_neg ho]; simp

private theorem icOf_iff (t : CondTables) (specs : List RegSpec) (nm : Str) (c : RegCond) :
    icOf t specs nm = .ok c ↔ IcFor t specs nm c := by
  unfold icOf IcFor
  cases hs : regSpecOf specs nm with
  | none =>
    refine ⟨fun h => (by cases h), fun ⟨s, h, _⟩ => ?_⟩
    rw [← regSpecOf_iff, hs] at h
    cases h
  | some s =>
    rw [regSpecOf_iff] at hs
    dsimp only
    constructor
    · intro h
      cases h1 : icFlow t s with
      | error => rw [h1] at h; cases h
      | ub => rw [h1] at h; cases h
      | ok f =>
      rw [h1] at h
      dsimp only at h
      cases h2 : icTracer t.sediment (decide (0 < t.numClasses)) true s.sediment with
      | error => rw [h2] at h; cases h
      | ub => rw [h2] at h; cases h
      | ok a =>
      rw [h2] at h
      dsimp only at h
      cases h3 : icTracer t.salinity t.salinityOn true s.salinity with
      | error => rw [h3] at h; cases h
      | ub => rw [h3] at h; cases h
      | ok b =>
      rw [h3] at h
      dsimp only at h
      cases h4 : icTracer t.temperature t.heatOn false s.temperature with
      | error => rw [h4] at h; cases h
      | ub => rw [h4] at h; cases h
      | ok d =>
      rw [h4] at h
      cases h
      rw [icFlow_iff] at h1
      rw [icTracer_iff] at h2 h3 h4
      refine ⟨s, hs, ⟨f, h1.1, h1.2.1, h1.2.2, rfl⟩, ?_, ?_, ?_⟩
      · simpa using h2
      · simpa using h3
      · simpa using h4
    · rintro ⟨s', hs', ⟨f, k1, k2, k3, k4⟩, h2, h3, h4⟩
      obtain rfl := hs.unique hs'
      have e1 := (icFlow_iff t s f).mpr ⟨k1, k2, k3⟩
      have e2 := (icTracer_iff t.sediment (decide (0 < t.numClasses)) true s.sediment c.sediment).mpr (by simpa using h2)
      have e3 := (icTracer_iff t.salinity t.salinityOn true s.salinity c.salinity).mpr (by simpa using h3)
      have e4 := (icTracer_iff t.temperature t.heatOn false s.temperature c.temperature).mpr (by simpa using h4)
      rw [e1]; dsimp only; rw [e2]; dsimp only; rw [e3]; dsimp only; rw [e4]
      dsimp only
      rw [← k4]

private theorem icOf_ne_ub (t : CondTables) (specs : List RegSpec) (h : TracerNamesExist t specs) (nm : Str) :
    icOf t specs nm ≠ .ub := by
  unfold icOf
  cases hs : regSpecOf specs nm with
  | none => simp
  | some s =>
    have hm : s ∈ specs := List.mem_of_find?_eq_some hs
    obtain ⟨g2, g3, g4⟩ := h s hm
    dsimp only
    cases h1 : icFlow t s with
    | error => simp
    | ub => exact absurd h1 (icFlow_ne_ub t s)
    | ok f =>
    dsimp only
    cases h2 : icTracer t.sediment (decide (0 < t.numClasses)) true s.sediment with
    | error => simp
    | ub => exact absurd h2 (icTracer_ne_ub _ _ _ _ (by simpa using g2))
    | ok a =>
    dsimp only
    cases h3 : icTracer t.salinity t.salinityOn true s.salinity with
    | error => simp
    | ub => exact absurd h3 (icTracer_ne_ub _ _ _ _ g3)
    | ok b =>
    dsimp only
    cases h4 : icTracer t.temperature t.heatOn false s.temperature with
    | error => simp
    | ub => exact absurd h4 (icTracer_ne_ub _ _ _ _ g4)
    | ok d => simp

private theorem forRegions_cons {α : Type} (f : Str → Res α) (r : Region) (rs : List Region) :
    forRegions f (r :: rs) = match f r.name with
      | .error => .error
      | .ub => .ub
      | .ok a => match forRegions f rs with
        | .error => .error
        | .ub => .ub
        | .ok l => .ok (a :: l) := rfl

private theorem forRegions_ok {α : Type} (f : Str → Res α) (regions : List Region) (l : List α) :
    forRegions f regions = .ok l ↔ regions.map (fun r => f r.name) = l.map Res.ok := by
  induction regions generalizing l with
  | nil =>
    cases l with
    | nil => simp [forRegions]
    | cons a as => simp [forRegions]
  | cons r rs ih =>
    have hcons : forRegions f (r :: rs) = match f r.name with
      | .error => .error
      | .ub => .ub
      | .ok a => match forRegions f rs with
        | .error => .error
        | .ub => .ub
        | .ok l => .ok (a :: l) := rfl
    rw [hcons]
    cases hf : f r.name with
    | error =>
      refine ⟨fun h => (by cases h), fun h => ?_⟩
      cases l with
      | nil => simp at h
      | cons a as => simp [hf] at h
    | ub =>
      refine ⟨fun h => (by cases h), fun h => ?_⟩
      cases l with
      | nil => simp at h
      | cons a as => simp [hf] at h
    | ok a =>
      dsimp only
      cases hr : forRegions f rs with
      | error =>
        refine ⟨fun h => (by cases h), fun h => ?_⟩
        cases l with
        | nil => simp at h
        | cons b bs =>
          rw [List.map_cons, List.map_cons, List.cons.injEq] at h
          rw [(ih bs).mpr h.2] at hr
          cases hr
      | ub =>
        refine ⟨fun h => (by cases h), fun h => ?_⟩
        cases l with
        | nil => simp at h
        | cons b bs =>
          rw [List.map_cons, List.map_cons, List.cons.injEq] at h
          rw [(ih bs).mpr h.2] at hr
          cases hr
      | ok as =>
        dsimp only
        constructor
        · intro h
          cases h
          rw [List.map_cons, List.map_cons, hf, (ih as).mp hr]
        · intro h
          cases l with
          | nil => simp at h
          | cons b bs =>
            rw [List.map_cons, List.map_cons, List.cons.injEq, hf] at h
            have e := (ih bs).mpr h.2
            rw [hr] at e
            cases e
            cases h.1
            rfl

private theorem forRegions_ne_ub {α : Type} (f : Str → Res α) (regions : List Region)
    (h : ∀ r ∈ regions, f r.name ≠ .ub) : forRegions f regions ≠ .ub := by
  induction regions with
  | nil => simp [forRegions]
  | cons r rs ih =>
    have hcons : forRegions f (r :: rs) = match f r.name with
      | .error => .error
      | .ub => .ub
      | .ok a => match forRegions f rs with
        | .error => .error
        | .ub => .ub
        | .ok l => .ok (a :: l) := rfl
    rw [hcons]
    have h1 := h r (by simp)
    have h2 := ih fun s hs => h s (by simp [hs])
    cases hf : f r.name with
    | error => simp
    | ub => exact absurd hf h1
    | ok a =>
      dsimp only
      cases hr : forRegions f rs with
      | error => simp
      | ub => exact absurd hr h2
      | ok l => simp

private theorem map_ok_iff {α : Type} (f : Str → Res α) (regions : List Region) (l : List α) :
    regions.map (fun r => f r.name) = l.map Res.ok ↔
      l.length = regions.length ∧ ∀ (i : ℕ) r c, regions[i]? = some r → l[i]? = some c → f r.name = .ok c := by
  induction regions generalizing l with
  | nil =>
    cases l with
    | nil => simp
    | cons a as => simp
  | cons r rs ih =>
    cases l with
    | nil => simp
    | cons a as =>
      rw [List.map_cons, List.map_cons, List.cons.injEq, ih as]
      constructor
      · rintro ⟨h1, h2, h3⟩
        refine ⟨by simp [h2], fun i r' c hr hc => ?_⟩
        cases i with
        | zero =>
          simp only [List.getElem?_cons_zero, Option.some.injEq] at hr hc
          rw [← hr, ← hc, h1]
        | succ i =>
          simp only [List.getElem?_cons_succ] at hr hc
          exact h3 i r' c hr hc
      · rintro ⟨h1, h2⟩
        refine ⟨h2 0 r a rfl rfl, by simpa using h1, fun i r' c hr hc => h2 (i + 1) r' c (by simpa using hr) (by simpa using hc)⟩

/-- C102 (initial conditions), the part that holds. Provided that the tracer conditions that are named exist, set-up
does not run into undefined behaviour; it succeeds exactly if every region has, in the first specification for it, a
Dirichlet flow condition and conditions for the tracers that are on, and then every region gets the (first) conditions
with these names, and none for tracers that are off. What is missing: names of tracer conditions that do not exist
(`C102_unknown_tracer_violated`), and the type of temperature conditions (`C102_temperature_type_violated`). -/
theorem C102_initial_conditions_partial (t : CondTables) (specs : List RegSpec) (regions : List Region) :
    (TracerNamesExist t specs → initInitialConditions t specs regions ≠ .ub) ∧
    ((∃ l, initInitialConditions t specs regions = .ok l) ↔ ∀ r ∈ regions, ∃ c, IcFor t specs r.name c) ∧
    ∀ l, initInitialConditions t specs regions = .ok l →
      l.length = regions.length ∧ ∀ (i : ℕ) r c, regions[i]? = some r → l[i]? = some c → IcFor t specs r.name c := by
  refine ⟨fun h => forRegions_ne_ub _ _ fun r _ => icOf_ne_ub t specs h r.name, ?_, ?_⟩
  · unfold initInitialConditions
    constructor
    · rintro ⟨l, hl⟩ r hr
      rw [forRegions_ok, map_ok_iff] at hl
      obtain ⟨i, hi, rfl⟩ := List.mem_iff_getElem.mp hr
      have hlt : i < l.length := by rw [hl.1]; exact hi
      exact ⟨l[i], (icOf_iff t specs _ _).mp (hl.2 i regions[i] l[i] (List.getElem?_eq_getElem hi)
        (List.getElem?_eq_getElem hlt))⟩
    · intro h
      induction regions with
      | nil => exact ⟨[], rfl⟩
      | cons r rs ih =>
        obtain ⟨l, hl⟩ := ih fun s hs => h s (by simp [hs])
        obtain ⟨c, hc⟩ := h r (by simp)
        rw [forRegions_ok] at hl
        refine ⟨c :: l, ?_⟩
        rw [forRegions_ok, List.map_cons, List.map_cons, hl, (icOf_iff t specs _ _).mpr hc]
  · intro l hl
    unfold initInitialConditions at hl
    rw [forRegions_ok, map_ok_iff] at hl
    exact ⟨hl.1, fun i r c hr hc => (icOf_iff t specs _ _).mp (hl.2 i r c hr hc)⟩

/-- Two regions with different flow conditions, one sediment class. -/
example : ∃ l, initInitialConditions ⟨[⟨['d'], .dirichlet⟩, ⟨['w'], .dirichlet⟩], [⟨['m'], .dirichlet⟩], [], [], 1, false, false⟩
      [⟨['b'], ['w'], ['m'], [], []⟩, ⟨['a'], ['d'], ['m'], [], []⟩] [⟨['a'], 1, [0]⟩, ⟨['b'], 2, [1]⟩] = .ok l ∧
    l.map RegCond.flow = [some ⟨['d'], .dirichlet⟩, some ⟨['w'], .dirichlet⟩] := by
  have h := (C102_initial_conditions_partial
    ⟨[⟨['d'], .dirichlet⟩, ⟨['w'], .dirichlet⟩], [⟨['m'], .dirichlet⟩], [], [], 1, false, false⟩
      [⟨['b'], ['w'], ['m'], [], []⟩, ⟨['a'], ['d'], ['m'], [], []⟩] [⟨['a'], 1, [0]⟩, ⟨['b'], 2, [1]⟩]).2.1.mpr (by
    intro r hr
    simp only [List.mem_cons, List.not_mem_nil, or_false] at hr
    rcases hr with rfl | rfl
    · refine ⟨⟨some ⟨['d'], .dirichlet⟩, some ⟨['m'], .dirichlet⟩, none, none⟩, ⟨['a'], ['d'], ['m'], [], []⟩,
        ⟨[⟨['b'], ['w'], ['m'], [], []⟩], [], rfl, rfl, by simp⟩,
        ⟨_, ⟨[], _, rfl, rfl, by simp⟩, rfl, by simp, rfl⟩, ?_, ?_, ?_⟩
      · exact ⟨fun _ => ⟨_, ⟨[], [], rfl, rfl, by simp⟩, fun _ => rfl, by simp, rfl⟩, fun h => absurd Nat.one_pos h⟩
      · exact ⟨fun h => (by cases h), fun _ => rfl⟩
      · exact ⟨fun h => (by cases h), fun _ => rfl⟩
    · refine ⟨⟨some ⟨['w'], .dirichlet⟩, some ⟨['m'], .dirichlet⟩, none, none⟩, ⟨['b'], ['w'], ['m'], [], []⟩,
        ⟨[], _, rfl, rfl, by simp⟩,
        ⟨_, ⟨[⟨['d'], .dirichlet⟩], _, rfl, rfl, by simp⟩, rfl, by simp, rfl⟩, ?_, ?_, ?_⟩
      · exact ⟨fun _ => ⟨_, ⟨[], [], rfl, rfl, by simp⟩, fun _ => rfl, by simp, rfl⟩, fun h => absurd Nat.one_pos h⟩
      · exact ⟨fun h => (by cases h), fun _ => rfl⟩
      · exact ⟨fun h => (by cases h), fun _ => rfl⟩)
  obtain ⟨l, hl⟩ := h
  refine ⟨l, hl, ?_⟩
  have : l = [⟨some ⟨['d'], .dirichlet⟩, some ⟨['m'], .dirichlet⟩, none, none⟩,
      ⟨some ⟨['w'], .dirichlet⟩, some ⟨['m'], .dirichlet⟩, none, none⟩] := by
    have e : initInitialConditions ⟨[⟨['d'], .dirichlet⟩, ⟨['w'], .dirichlet⟩], [⟨['m'], .dirichlet⟩], [], [], 1, false, false⟩
      [⟨['b'], ['w'], ['m'], [], []⟩, ⟨['a'], ['d'], ['m'], [], []⟩] [⟨['a'], 1, [0]⟩, ⟨['b'], 2, [1]⟩]
      = .ok [⟨some ⟨['d'], .dirichlet⟩, some ⟨['m'], .dirichlet⟩, none, none⟩,
        ⟨some ⟨['w'], .dirichlet⟩, some ⟨['m'], .dirichlet⟩, none, none⟩] := rfl
    rw [e] at hl
    cases hl
    rfl
  rw [this]
  rfl

/-- C102 is violated for tracers: if the first region's specification is in order but names a sediment (or salinity)
condition that does not exist, this is not reported; the memory in front of the table is read. -/
theorem C102_unknown_tracer_violated (t : CondTables) (specs : List RegSpec) (r : Region) (rs : List Region)
    (s : RegSpec) (f : Cond) (hs : FirstFor specs r.name s) (hf : NamedBy t.flow s.flow f) (hd : f.type = .dirichlet)
    (hne : s.flow ≠ []) :
    (0 < t.numClasses → s.sediment ≠ [] → (∀ c ∈ t.sediment, c.name ≠ s.sediment) →
      initInitialConditions t specs (r :: rs) = .ub) ∧
    (t.numClasses = 0 → t.salinityOn = true → s.salinity ≠ [] → (∀ c ∈ t.salinity, c.name ≠ s.salinity) →
      initInitialConditions t specs (r :: rs) = .ub) := by
  have e1 := (icFlow_iff t s f).mpr ⟨hf, hd, hne⟩
  have e0 := (regSpecOf_iff specs r.name s).mpr hs
  have hub : icOf t specs r.name = .ub → initInitialConditions t specs (r :: rs) = .ub := by
    intro h
    unfold initInitialConditions
    rw [forRegions_cons, h]
  have hnone : ∀ (conds : List Cond) (nm : Str), (∀ c ∈ conds, c.name ≠ nm) → findCond conds nm = none := by
    intro conds nm h
    unfold findCond
    rw [List.find?_eq_none]
    intro c hc
    simpa using h c hc
  constructor
  · intro hn hse hno
    have e2 : icTracer t.sediment (decide (0 < t.numClasses)) true s.sediment = .ub := by
      unfold icTracer
      rw [if_pos (by simpa using hn), if_neg hse, hnone _ _ hno]
    have : icOf t specs r.name = .ub := by
      unfold icOf
      rw [e0]; dsimp only; rw [e1]; dsimp only; rw [e2]
    exact hub this
  · intro hn hon hse hno
    have e2 : icTracer t.sediment (decide (0 < t.numClasses)) true s.sediment = .ok none := by
      unfold icTracer
      rw [if_neg (by simp [hn])]
    have e3 : icTracer t.salinity t.salinityOn true s.salinity = .ub := by
      unfold icTracer
      rw [if_pos hon, if_neg hse, hnone _ _ hno]
    have : icOf t specs r.name = .ub := by
      unfold icOf
      rw [e0]; dsimp only; rw [e1]; dsimp only; rw [e2]; dsimp only; rw [e3]
    exact hub this

/-- A misspelt name of a sediment condition. -/
example : initInitialConditions ⟨[⟨['d'], .dirichlet⟩], [⟨['m', 'u', 'd'], .dirichlet⟩], [], [], 1, false, false⟩
    [⟨['a'], ['d'], ['m', 'o', 'd'], [], []⟩] [⟨['a'], 1, [0]⟩] = .ub :=
  (C102_unknown_tracer_violated _ _ ⟨['a'], 1, [0]⟩ [] ⟨['a'], ['d'], ['m', 'o', 'd'], [], []⟩ ⟨['d'], .dirichlet⟩
    ⟨[], [], rfl, rfl, by simp⟩ ⟨[], [], rfl, rfl, by simp⟩ rfl (by simp)).1 Nat.one_pos (by simp) (by simp)

/-- C102 is violated for temperature: an initial condition that is not of Dirichlet type is accepted (for the other
quantities it is refused). -/
theorem C102_temperature_type_violated :
    ∃ (t : CondTables) (specs : List RegSpec) (r : Region) (c : RegCond) (k : Cond),
      initInitialConditions t specs [r] = .ok [c] ∧ c.temperature = some k ∧ k.type ≠ .dirichlet :=
  ⟨⟨[⟨['d'], .dirichlet⟩], [], [], [⟨['h'], .reflecting⟩], 0, false, true⟩, [⟨['a'], ['d'], [], [], ['h']⟩],
    ⟨['a'], 1, [0]⟩, ⟨some ⟨['d'], .dirichlet⟩, none, none, some ⟨['h'], .reflecting⟩⟩, ⟨['h'], .reflecting⟩,
    rfl, rfl, by decide⟩

/-! ### Sources -/

/-- Specification: the flow source `c` of the region called `nm`. -/
def SourceFor (t : CondTables) (specs : List RegSpec) (nm : Str) (c : Option Cond) : Prop :=
  ((∀ s ∈ specs, s.region ≠ nm) → c = none) ∧
  ∀ s, FirstFor specs nm s → (s.flow = [] → c = none) ∧
    (s.flow ≠ [] → ∃ f, NamedBy t.flow s.flow f ∧ f.type = .runoff ∧ c = some f)

private theorem regSpecOf_none (specs : List RegSpec) (nm : Str) :
    regSpecOf specs nm = none ↔ ∀ s ∈ specs, s.region ≠ nm := by
  unfold regSpecOf
  rw [List.find?_eq_none]
  simp

private theorem srcFlow_ne_ub (t : CondTables) (s : RegSpec) : srcFlow t s ≠ .ub := by
  unfold srcFlow
  split_ifs
  · simp
  · split
    · simp
    · split_ifs <;> simp

private theorem srcOf_ok (t : CondTables) (specs : List RegSpec) (nm : Str) (c : RegCond)
    (h : srcOf t specs nm = .ok c) : SourceFor t specs nm c.flow := by
  unfold srcOf at h
  cases hs : regSpecOf specs nm with
  | none =>
    rw [hs] at h
    cases h
    refine ⟨fun _ => rfl, fun s hf => ?_⟩
    rw [← regSpecOf_iff, hs] at hf
    cases hf
  | some s =>
    rw [hs] at h
    dsimp only at h
    cases hf : srcFlow t s with
    | error => rw [hf] at h; cases h
    | ub => rw [hf] at h; cases h
    | ok f =>
      rw [hf] at h
      dsimp only at h
      split_ifs at h
      cases h
      refine ⟨fun hn => ?_, fun s' hs' => ?_⟩
      · rw [(regSpecOf_none specs nm).mpr hn] at hs
        cases hs
      · rw [regSpecOf_iff] at hs
        obtain rfl := hs.unique hs'
        unfold srcFlow at hf
        constructor
        · intro he
          rw [if_pos he] at hf
          cases hf
          rfl
        · intro he
          rw [if_neg he] at hf
          cases hc : findCond t.flow s.flow with
          | none => rw [hc] at hf; cases hf
          | some k =>
            rw [hc] at hf
            dsimp only at hf
            split_ifs at hf with hr
            cases hf
            exact ⟨k, (findCond_iff _ _ _).mp hc, hr, rfl⟩

private theorem srcOf_ne_ub (t : CondTables) (specs : List RegSpec) (nm : Str) : srcOf t specs nm ≠ .ub := by
  unfold srcOf
  cases hs : regSpecOf specs nm with
  | none => simp
  | some s =>
    dsimp only
    cases hf : srcFlow t s with
    | error => simp
    | ub => exact absurd hf (srcFlow_ne_ub t s)
    | ok f =>
      dsimp only
      split_ifs <;> simp

/-- C102 (sources), the part that holds. Set-up of sources never runs into undefined behaviour; if it succeeds, every
region has the runoff condition named by the first source for it, and no source if there is none. If a region's
source names a flow condition that does not exist or is not of runoff type, or a source of a tracer that is on, then
set-up fails. What is missing: sources for regions that do not exist, and second sources for a region
(`C102_ignored_source_violated`). -/
theorem C102_sources_partial (t : CondTables) (specs : List RegSpec) (regions : List Region) :
    initSourceList t specs regions ≠ .ub ∧
    (∀ l, initSourceList t specs regions = .ok l →
      l.length = regions.length ∧
      ∀ (i : ℕ) r c, regions[i]? = some r → l[i]? = some c → SourceFor t specs r.name c.flow) ∧
    (∀ r ∈ regions, ∀ s, FirstFor specs r.name s →
      (s.flow ≠ [] ∧ (∀ f, NamedBy t.flow s.flow f → f.type ≠ .runoff)) ∨ (0 < t.numClasses ∧ s.sediment ≠ []) ∨
        (t.salinityOn = true ∧ s.salinity ≠ []) ∨ (t.heatOn = true ∧ s.temperature ≠ []) →
      initSourceList t specs regions = .error) := by
  have hub : initSourceList t specs regions ≠ .ub := by
    unfold initSourceList
    by_cases h : specs = []
    · rw [if_pos h]; simp
    · rw [if_neg h]
      exact forRegions_ne_ub _ _ fun r _ => srcOf_ne_ub t specs r.name
  refine ⟨hub, ?_, ?_⟩
  · intro l hl
    unfold initSourceList at hl
    by_cases h : specs = []
    · rw [if_pos h] at hl
      cases hl
      refine ⟨by simp, fun i r c hr hc => ?_⟩
      rw [List.getElem?_map, hr] at hc
      simp only [Option.map_some, Option.some.injEq] at hc
      subst hc
      refine ⟨fun _ => rfl, fun s ⟨pre, post, e, _⟩ => ?_⟩
      rw [h] at e
      simp at e
    · rw [if_neg h, forRegions_ok, map_ok_iff] at hl
      exact ⟨hl.1, fun i r c hr hc => srcOf_ok t specs r.name c (hl.2 i r c hr hc)⟩
  · intro r hr s hs hbad
    cases hres : initSourceList t specs regions with
    | error => rfl
    | ub => exact absurd hres hub
    | ok l =>
      exfalso
      unfold initSourceList at hres
      have hne : specs ≠ [] := by
        rintro rfl
        obtain ⟨pre, post, e, _⟩ := hs
        simp at e
      rw [if_neg hne, forRegions_ok, map_ok_iff] at hres
      obtain ⟨i, hi, rfl⟩ := List.mem_iff_getElem.mp hr
      have hlt : i < l.length := by rw [hres.1]; exact hi
      have hok := hres.2 i regions[i] l[i] (List.getElem?_eq_getElem hi) (List.getElem?_eq_getElem hlt)
      have hsrc := (srcOf_ok t specs _ _ hok).2 s hs
      unfold srcOf at hok
      rw [(regSpecOf_iff specs _ s).mpr hs] at hok
      dsimp only at hok
      cases hf : srcFlow t s with
      | error => rw [hf] at hok; cases hok
      | ub => rw [hf] at hok; cases hok
      | ok f =>
        rw [hf] at hok
        dsimp only at hok
        split_ifs at hok with g1 g2 g3
        rcases hbad with ⟨hb, hno⟩ | hb | hb | hb
        · obtain ⟨k, hk, hr, _⟩ := hsrc.2 hb
          exact hno k hk hr
        · exact g1 hb
        · exact g2 hb
        · exact g3 hb

/-- One region has a source, the other has none. -/
example : ∀ l, initSourceList ⟨[⟨['r'], .runoff⟩], [], [], [], 0, false, false⟩ [⟨['b'], ['r'], [], [], []⟩]
      [⟨['a'], 1, [0]⟩, ⟨['b'], 2, [1]⟩] = .ok l → l.map RegCond.flow = [none, some ⟨['r'], .runoff⟩] := by
  intro l hl
  obtain ⟨h1, h2⟩ := (C102_sources_partial _ _ _).2.1 l hl
  match l, h1 with
  | [a, b], _ =>
    have ha := (h2 0 _ a rfl rfl).1 (by simp)
    obtain ⟨f, hf, _, hb⟩ := ((h2 1 _ b rfl rfl).2 ⟨['b'], ['r'], [], [], []⟩ ⟨[], [], rfl, rfl, by simp⟩).2 (by simp)
    have : f = ⟨['r'], .runoff⟩ := hf.unique ⟨[], [], rfl, rfl, by simp⟩
    simp [ha, hb, this]

example : initSourceList ⟨[⟨['r'], .dirichlet⟩], [], [], [], 0, false, false⟩ [⟨['b'], ['r'], [], [], []⟩]
    [⟨['b'], 2, [1]⟩] = .error :=
  (C102_sources_partial _ _ _).2.2 ⟨['b'], 2, [1]⟩ (by simp) ⟨['b'], ['r'], [], [], []⟩ ⟨[], [], rfl, rfl, by simp⟩
    (Or.inl ⟨by simp, fun f hf => by
      rw [hf.unique (⟨[], [], rfl, rfl, by simp⟩ : NamedBy _ _ ⟨['r'], .dirichlet⟩)]; decide⟩)

/-- C102 is violated for sources: a source for a region that does not exist (a misspelt name, say), or a second
source for a region, is not reported and has no effect at all. -/
theorem C102_ignored_source_violated (t : CondTables) (specs : List RegSpec) (regions : List Region) (s : RegSpec)
    (h : (∀ r ∈ regions, r.name ≠ s.region) ∨ ∃ s' ∈ specs, s'.region = s.region) :
    initSourceList t (specs ++ [s]) regions = initSourceList t specs regions := by
  have hspec : ∀ r ∈ regions, regSpecOf (specs ++ [s]) r.name = regSpecOf specs r.name := by
    intro r hr
    unfold regSpecOf
    rw [List.find?_append]
    rcases h with h | ⟨s', hs', he⟩
    · have : [s].find? (fun s' => decide (s'.region = r.name)) = none := by
        rw [List.find?_eq_none]
        intro b hb
        rw [List.mem_singleton] at hb
        subst hb
        simpa using fun e => h r hr e.symm
      rw [this, Option.or_none]
    · by_cases hn : s.region = r.name
      · have : (specs.find? fun s' => decide (s'.region = r.name)).isSome := by
          rw [List.find?_isSome]
          exact ⟨s', hs', by simpa using he.trans hn⟩
        obtain ⟨a, ha⟩ := Option.isSome_iff_exists.mp this
        rw [ha, Option.some_or]
      · have : [s].find? (fun s' => decide (s'.region = r.name)) = none := by
          rw [List.find?_eq_none]
          intro b hb
          rw [List.mem_singleton] at hb
          subst hb
          simpa using hn
        rw [this, Option.or_none]
  have hcong : ∀ rs : List Region, (∀ r ∈ rs, r ∈ regions) →
      forRegions (srcOf t (specs ++ [s])) rs = forRegions (srcOf t specs) rs := by
    intro rs
    induction rs with
    | nil => intro _; rfl
    | cons r rs ih =>
      intro hr
      have e : srcOf t (specs ++ [s]) r.name = srcOf t specs r.name := by
        unfold srcOf
        rw [hspec r (hr r (by simp))]
      rw [forRegions_cons, forRegions_cons, e, ih fun r' h' => hr r' (by simp [h'])]
  unfold initSourceList
  rw [if_neg (by simp), hcong regions fun _ h => h]
  by_cases he : specs = []
  · rw [if_pos he, forRegions_ok, he]
    rw [List.map_map]
    rfl
  · rw [if_neg he]

/-- The source is for "lande", the region is called "land". -/
example : initSourceList ⟨[⟨['r'], .runoff⟩], [], [], [], 0, false, false⟩ ([] ++ [⟨['l', 'a', 'n', 'd', 'e'], ['r'], [], [], []⟩])
    [⟨['l', 'a', 'n', 'd'], 1, [0]⟩] = .ok [⟨none, none, none, none⟩] := by
  rw [C102_ignored_source_violated _ _ _ _ (Or.inl (by simp))]
  rfl

/-! ### Expressions -/

/-- C102 (values), the part that holds. An accepted Dirichlet condition without file and without `value` whose
expressions make sense is given by three constants, and these are the values set on boundaries and initially. An
accepted runoff condition with a `value` that makes sense gives that value as source. An accepted roughness without
file whose expression makes sense is a constant. What is missing: the other cases of conditions that are accepted
(`C102_value_violated`, `C102_boundary_file_violated`, `C102_runoff_violated`, `C102_malformed_violated`). -/
theorem C102_values_partial (f : FlowText) (hacc : f.accepted = true) :
    (f.type = .dirichlet → f.file = false → f.value = .absent → f.height ≠ .malformed → f.xMomentum ≠ .malformed →
      f.yMomentum ≠ .malformed → ∃ h hu hv, f.height = .const h ∧ f.xMomentum = .const hu ∧ f.yMomentum = .const hv ∧
        f.onBoundary = (h, hu, hv) ∧ f.initially = (h, hu, hv)) ∧
    (f.type = .runoff → ∀ v, f.value = .const v → f.asSource = v) ∧
    (∀ p : PropText, p.accepted = true → p.file = false → p.value ≠ .malformed → ∃ n, p.value = .const n ∧ p.value.eval = n) := by
  refine ⟨?_, ?_, ?_⟩
  · intro ht hfile hval n1 n2 n3
    unfold FlowText.accepted at hacc
    rw [ht, hfile, hval] at hacc
    cases h1 : f.height with
    | absent => rw [h1] at hacc; simp [ExprText.given] at hacc
    | malformed => exact absurd h1 n1
    | const a =>
    cases h2 : f.xMomentum with
    | absent => rw [h2] at hacc; simp [ExprText.given] at hacc
    | malformed => exact absurd h2 n2
    | const b =>
    cases h3 : f.yMomentum with
    | absent => rw [h3] at hacc; simp [ExprText.given] at hacc
    | malformed => exact absurd h3 n3
    | const c =>
    refine ⟨a, b, c, rfl, rfl, rfl, ?_, ?_⟩
    · unfold FlowText.onBoundary; rw [h1, h2, h3]; rfl
    · unfold FlowText.initially; rw [h1, h2, h3]; rfl
  · intro _ v hv
    unfold FlowText.asSource
    rw [hv]; rfl
  · intro p hp hfile hm
    unfold PropText.accepted at hp
    rw [hfile] at hp
    cases hv : p.value with
    | absent => rw [hv] at hp; simp [ExprText.given] at hp
    | malformed => exact absurd hv hm
    | const n => exact ⟨n, rfl, rfl⟩

example : ∃ h hu hv, (FlowText.mk ['d'] .dirichlet false (.const 2) (.const 1) (.const 0) .absent).onBoundary = (h, hu, hv) ∧
    (FlowText.mk ['d'] .dirichlet false (.const 2) (.const 1) (.const 0) .absent).height = .const h := by
  obtain ⟨h, hu, hv, e, _, _, b, _⟩ := (C102_values_partial
    ⟨['d'], .dirichlet, false, .const 2, .const 1, .const 0, .absent⟩ rfl).1 rfl rfl rfl (by simp) (by simp) (by simp)
  exact ⟨h, hu, hv, b, e⟩

/-- C102 is violated: a Dirichlet condition with only a `value` is accepted, and used as depth 0 and momentum 0,
whatever the value. -/
theorem C102_value_violated (nm : Str) (v : ℝ) :
    (FlowText.mk nm .dirichlet false .absent .absent .absent (.const v)).accepted = true ∧
    (FlowText.mk nm .dirichlet false .absent .absent .absent (.const v)).onBoundary = (0, 0, 0) ∧
    (FlowText.mk nm .dirichlet false .absent .absent .absent (.const v)).initially = (0, 0, 0) :=
  ⟨rfl, rfl, rfl⟩

/-- C102 is violated: a Dirichlet condition with a file is accepted for a boundary; the file is not read for it, and
the boundary has depth 0 and momentum 0 if there are no expressions. -/
theorem C102_boundary_file_violated (nm : Str) :
    (FlowText.mk nm .dirichlet true .absent .absent .absent .absent).accepted = true ∧
    (FlowText.mk nm .dirichlet true .absent .absent .absent .absent).onBoundary = (0, 0, 0) :=
  ⟨rfl, rfl⟩

/-- C102 is violated: a runoff condition without `value`, but with a height and momenta (or a file), is accepted, and
gives no source. -/
theorem C102_runoff_violated (nm : Str) (h hu hv : ℝ) (file : Bool) :
    (FlowText.mk nm .runoff file (.const h) (.const hu) (.const hv) .absent).accepted = true ∧
    (FlowText.mk nm .runoff file (.const h) (.const hu) (.const hv) .absent).asSource = 0 := by
  cases file <;> exact ⟨rfl, rfl⟩

/-- C102 is violated: expressions that make no sense are accepted, and evaluated to 0: boundaries and initial states
become dry, sources vanish, and the roughness is zero. -/
theorem C102_malformed_violated (nm : Str) :
    (FlowText.mk nm .dirichlet false .malformed .malformed .malformed .absent).accepted = true ∧
    (FlowText.mk nm .dirichlet false .malformed .malformed .malformed .absent).onBoundary = (0, 0, 0) ∧
    (FlowText.mk nm .runoff false .absent .absent .absent .malformed).accepted = true ∧
    (FlowText.mk nm .runoff false .absent .absent .absent .malformed).asSource = 0 ∧
    (PropText.mk false false .malformed).accepted = true ∧ (PropText.mk false false .malformed).value.eval = 0 :=
  ⟨rfl, rfl, rfl, rfl, rfl, rfl⟩

end RDy
