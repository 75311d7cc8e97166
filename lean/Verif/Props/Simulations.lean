import Verif.Model.Simulations
import Verif.Props.Lifecycle
import Mathlib.Tactic

/-!
# C122: the backend of every simulation of a process

Specification: two functions of the history of calls alone. `enabledAfter` says whether the last accepted set-up asked for libCEED. `madeAs i` says with which backend object `i` was
set up, if it is alive. The first set-up of the process with an empty `-ceed` leaves libCEED off.
-/

namespace RDy

/-- Specification: a set-up that is refused, when libCEED is in use in the process (`on`) or not. -/
def RefusedSetup (wb : WellBalancing) (classes : ℕ) (on : Bool) : Prop := wb = .bs2002 ∧ (0 < classes ∨ on = true)

instance (wb : WellBalancing) (classes : ℕ) (on : Bool) : Decidable (RefusedSetup wb classes on) := by
  unfold RefusedSetup; infer_instance

/-- Specification: is libCEED in use after these calls? `on`: before them. -/
def enabledAfter : Bool → List SimOp → Bool
  | on, [] => on
  | on, .setup _ r wb n :: t => if RefusedSetup wb n on then enabledAfter on t else enabledAfter (!r.isEmpty) t
  | on, _ :: t => enabledAfter on t

/-- Specification: the backend with which object `i` was set up last, `none` if it was not set up, or destroyed since. -/
def madeAs (i : ℕ) : Bool → Option Bool → List SimOp → Option Bool
  | _, m, [] => m
  | on, m, .setup j r wb n :: t =>
    if RefusedSetup wb n on then madeAs i on m t else madeAs i (!r.isEmpty) (if j = i then some (!r.isEmpty) else m) t
  | on, m, .call _ :: t => madeAs i on m t
  | on, m, .destroy j :: t => madeAs i on (if j = i then none else m) t

/-- Specification: what the user sees of a call on an object set up with this backend. -/
def answerOf : Option Bool → SimOut
  | none => .early
  | some b => .ran b

theorem refuses_iff (wb : WellBalancing) (n : ℕ) (on : Bool) : refusesBS2002 wb n on = true ↔ RefusedSetup wb n on := by
  unfold refusesBS2002 RefusedSetup
  by_cases h : wb = .bs2002
  · rw [if_pos h]
    by_cases hn : n > 0
    · rw [if_pos hn]; simp [h, hn]
    · rw [if_neg hn]; cases on <;> simp [h, hn]
  · rw [if_neg h]; simp [h]

/-- The process is as the first cycle of the library leaves it. -/
structure Sims.Ok (s : Sims) : Prop where
  cycle : ∃ ci cr fs, s.proc.FirstCycle ci cr fs
  ceed : s.proc.CeedOk

theorem Sims.fresh_ok : Sims.fresh.Ok := ⟨⟨_, _, _, firstCycle_fresh⟩, by intro x hx; simp [Sims.fresh, Proc.fresh] at hx⟩

theorem Proc.setCeed_ok (s : Sims) (hs : s.Ok) (r : List Char) :
    ∃ p, s.proc.setCeed (some r) = some p ∧ p.enabled = !r.isEmpty ∧ ∀ m, Sims.Ok ⟨p, m⟩ := by
  obtain ⟨ci, cr, fs, hc⟩ := hs.cycle
  obtain ⟨q, ci', cr', h1, h2⟩ := firstCycle_run [.setCeed (some r)] (by simp) s.proc ci cr fs hc
  simp only [Proc.runOps, Proc.step, Option.bind_eq_some_iff, Option.map_eq_some_iff] at h1
  obtain ⟨a, ⟨p, hp, rfl⟩, b, hb, he⟩ := h1
  have hbq : p = q := by
    simp only [Option.some.injEq] at hb
    rw [← hb] at he
    exact (Prod.mk.inj he).1
  subst hbq
  have hk := setCeed_ceed _ _ _ hs.ceed hp
  refine ⟨p, hp, ?_, fun m => ⟨⟨_, _, _, h2⟩, hk.1⟩⟩
  unfold Proc.enabled
  rw [hk.2]
  cases r <;> rfl

/-- One call: the state of the process follows the specification, and what is seen is what the specification says. -/
theorem Sims.step_spec (s : Sims) (hs : s.Ok) (op : SimOp) (s' : Sims) (o : SimOut) (h : s.step op = some (s', o)) :
    s'.Ok ∧ s'.proc.enabled = enabledAfter s.proc.enabled [op] ∧ ∀ i, s'.made i = madeAs i s.proc.enabled (s.made i) [op] := by
  cases op with
  | setup j r wb n =>
    have h' : s.setup j r wb n = some (s', o) := h
    unfold Sims.setup at h'
    by_cases hr : refusesBS2002 wb n s.proc.enabled = true
    · rw [if_pos hr] at h'
      obtain ⟨rfl, -⟩ := Prod.mk.inj (Option.some.inj h')
      have hr' := (refuses_iff wb n s.proc.enabled).1 hr
      refine ⟨hs, ?_, fun i => ?_⟩
      · simp only [enabledAfter, if_pos hr']
      · simp only [madeAs, if_pos hr']
    · rw [if_neg hr] at h'
      have hr' : ¬ RefusedSetup wb n s.proc.enabled := fun hx => hr ((refuses_iff wb n s.proc.enabled).2 hx)
      obtain ⟨p, hp, he, hok⟩ := Proc.setCeed_ok s hs r
      rw [hp, Option.map_some] at h'
      obtain ⟨rfl, -⟩ := Prod.mk.inj (Option.some.inj h')
      refine ⟨hok _, ?_, fun i => ?_⟩
      · simp only [enabledAfter, if_neg hr']; exact he
      · simp only [madeAs, if_neg hr']
        by_cases hij : j = i
        · subst hij; rw [if_pos rfl, Function.update_self, he]
        · rw [if_neg hij, Function.update_of_ne (Ne.symm hij)]
  | call j =>
    simp only [Sims.step, Option.map_eq_some_iff] at h
    obtain ⟨a, -, ha⟩ := h
    obtain ⟨rfl, -⟩ := Prod.mk.inj ha
    exact ⟨hs, rfl, fun i => rfl⟩
  | destroy j =>
    simp only [Sims.step, Option.map_eq_some_iff] at h
    obtain ⟨a, -, ha⟩ := h
    obtain ⟨rfl, -⟩ := Prod.mk.inj ha
    refine ⟨⟨hs.cycle, hs.ceed⟩, rfl, fun i => ?_⟩
    simp only [madeAs]
    by_cases hij : j = i
    · subst hij; rw [if_pos rfl, Function.update_self]
    · rw [if_neg hij, Function.update_of_ne (Ne.symm hij)]

theorem enabledAfter_cons (on : Bool) (op : SimOp) (t : List SimOp) : enabledAfter on (op :: t) = enabledAfter (enabledAfter on [op]) t := by
  cases op with
  | setup j r wb n => simp only [enabledAfter]; split_ifs <;> rfl
  | call j => rfl
  | destroy j => rfl

theorem madeAs_cons (i : ℕ) (on : Bool) (m : Option Bool) (op : SimOp) (t : List SimOp) :
    madeAs i on m (op :: t) = madeAs i (enabledAfter on [op]) (madeAs i on m [op]) t := by
  cases op with
  | setup j r wb n =>
    by_cases h : RefusedSetup wb n on
    · simp only [enabledAfter, madeAs, if_pos h]
    · simp only [enabledAfter, madeAs, if_neg h]
  | call j => rfl
  | destroy j => rfl

theorem Sims.run_spec (h : List SimOp) : ∀ (s : Sims), s.Ok → ∀ (s' : Sims) (out : List SimOut), s.run h = some (s', out) →
    s'.Ok ∧ s'.proc.enabled = enabledAfter s.proc.enabled h ∧ ∀ i, s'.made i = madeAs i s.proc.enabled (s.made i) h := by
  induction h with
  | nil =>
    intro s hs s' out hr
    obtain ⟨rfl, -⟩ := Prod.mk.inj (Option.some.inj hr)
    exact ⟨hs, rfl, fun i => rfl⟩
  | cons op t ih =>
    intro s hs s' out hr
    simp only [Sims.run, Option.bind_eq_some_iff, Option.map_eq_some_iff] at hr
    obtain ⟨⟨a, o⟩, h1, ⟨b, os⟩, h2, he⟩ := hr
    obtain ⟨hb, -⟩ := Prod.mk.inj he
    obtain ⟨k1, k2, k3⟩ := Sims.step_spec s hs op a o h1
    obtain ⟨l1, l2, l3⟩ := ih a k1 b os h2
    dsimp only at hb
    subst hb
    refine ⟨l1, ?_, fun i => ?_⟩
    · rw [l2, k2, ← enabledAfter_cons]
    · rw [l3, k3, k2, ← madeAs_cons]

theorem Sims.run_snoc (h : List SimOp) (op : SimOp) : ∀ (s : Sims),
    s.run (h ++ [op]) = (s.run h).bind fun r => (r.1.step op).map fun t => (t.1, r.2 ++ [t.2]) := by
  induction h with
  | nil =>
    intro s
    simp only [List.nil_append, Sims.run, Option.bind_some]
    cases s.step op <;> simp
  | cons a t ih =>
    intro s
    rw [List.cons_append]
    simp only [Sims.run]
    cases s.step a with
    | none => rfl
    | some r =>
      simp only [Option.bind_some]
      rw [ih]
      cases r.1.run t with
      | none => rfl
      | some q => simp only [Option.bind_some, Option.map_some]; cases q.1.step op <;> simp

theorem Sims.look_spec (s : Sims) (i : ℕ) :
    (s.look i = none ↔ ∃ b, s.made i = some b ∧ b ≠ s.proc.enabled) ∧ ∀ o, s.look i = some o → o = answerOf (s.made i) := by
  unfold Sims.look
  cases hm : s.made i with
  | none =>
    refine ⟨⟨fun h => by simp at h, fun ⟨b, hb, _⟩ => by simp at hb⟩, fun o ho => ?_⟩
    exact (Option.some.inj ho).symm
  | some b =>
    dsimp only
    by_cases hb : b = s.proc.enabled
    · rw [if_pos hb]
      refine ⟨⟨fun h => by simp at h, fun ⟨c, hc, hn⟩ => ?_⟩, fun o ho => (Option.some.inj ho).symm⟩
      exact absurd (by rw [← Option.some.inj hc]; exact hb) hn
    · rw [if_neg hb]
      exact ⟨⟨fun _ => ⟨b, rfl, hb⟩, fun _ => rfl⟩, fun o ho => by simp at ho⟩

/-- C122: exactly when the next call is undefined, after every history of calls on any number of simulations. A call on an object, or its destruction, is undefined exactly if the object is
alive and the last accepted set-up of the process, of whatever object, chose the other backend. A set-up is never undefined. -/
theorem C122_undefined_iff (h : List SimOp) (s : Sims) (out : List SimOut) (hr : Sims.fresh.run h = some (s, out)) :
    (∀ i, Sims.fresh.run (h ++ [.call i]) = none ↔ ∃ b, madeAs i false none h = some b ∧ b ≠ enabledAfter false h) ∧
    (∀ i, Sims.fresh.run (h ++ [.destroy i]) = none ↔ ∃ b, madeAs i false none h = some b ∧ b ≠ enabledAfter false h) ∧
    (∀ i r wb n, Sims.fresh.run (h ++ [.setup i r wb n]) ≠ none) := by
  obtain ⟨hok, he, hm⟩ := Sims.run_spec h Sims.fresh Sims.fresh_ok s out hr
  have he' : s.proc.enabled = enabledAfter false h := he
  have hm' : ∀ i, s.made i = madeAs i false none h := hm
  refine ⟨fun i => ?_, fun i => ?_, fun i r wb n => ?_⟩
  · rw [Sims.run_snoc, hr, Option.bind_some]
    simp only [Sims.step, Option.map_eq_none_iff]
    rw [(Sims.look_spec s i).1, hm', he']
  · rw [Sims.run_snoc, hr, Option.bind_some]
    simp only [Sims.step, Option.map_eq_none_iff]
    rw [(Sims.look_spec s i).1, hm', he']
  · rw [Sims.run_snoc, hr, Option.bind_some]
    simp only [Sims.step, ne_eq, Option.map_eq_none_iff]
    unfold Sims.setup
    by_cases hr' : refusesBS2002 wb n s.proc.enabled = true
    · rw [if_pos hr']; simp
    · rw [if_neg hr']
      obtain ⟨p, hp, -, -⟩ := Proc.setCeed_ok s hok r
      rw [hp]; simp

/-- C122: what is seen of a call that is defined. A call or a destruction is done by the backend with which this object was set up; a set-up gives the backend that its own `-ceed`
asks for, or is refused for the BS2002 well-balancing with sediment or while the process uses libCEED. -/
theorem C122_seen (h : List SimOp) (op : SimOp) (s : Sims) (out : List SimOut) (o : SimOut) (hr : Sims.fresh.run (h ++ [op]) = some (s, out ++ [o])) :
    (∀ i, op = .call i ∨ op = .destroy i → o = answerOf (madeAs i false none h)) ∧
    (∀ i r wb n, op = .setup i r wb n → o = if RefusedSetup wb n (enabledAfter false h) then .refused else .ready (!r.isEmpty)) := by
  rw [Sims.run_snoc, Option.bind_eq_some_iff] at hr
  obtain ⟨⟨q, os⟩, hq, ht⟩ := hr
  rw [Option.map_eq_some_iff] at ht
  obtain ⟨⟨q', o'⟩, hs, he⟩ := ht
  have ho : o' = o := by
    have h2 := (Prod.mk.inj he).2
    have := List.append_inj_right' h2 rfl
    simpa using this
  subst ho
  obtain ⟨hok, hen, hm⟩ := Sims.run_spec h Sims.fresh Sims.fresh_ok q os hq
  have hen' : q.proc.enabled = enabledAfter false h := hen
  have hm' : ∀ i, q.made i = madeAs i false none h := hm
  refine ⟨fun i hi => ?_, fun i r wb n hop => ?_⟩
  · rw [← hm']
    rcases hi with rfl | rfl
    all_goals
      simp only [Sims.step, Option.map_eq_some_iff] at hs
      obtain ⟨a, ha, hb⟩ := hs
      rw [← (Prod.mk.inj hb).2]
      exact (Sims.look_spec q i).2 a ha
  · subst hop
    have hs' : q.setup i r wb n = some (q', o') := hs
    unfold Sims.setup at hs'
    rw [← hen']
    by_cases hr' : refusesBS2002 wb n q.proc.enabled = true
    · rw [if_pos hr'] at hs'
      rw [if_pos ((refuses_iff wb n q.proc.enabled).1 hr')]
      exact (Prod.mk.inj (Option.some.inj hs')).2.symm
    · rw [if_neg hr'] at hs'
      have hn : ¬ RefusedSetup wb n q.proc.enabled := fun hx => hr' ((refuses_iff wb n q.proc.enabled).2 hx)
      rw [if_neg hn]
      obtain ⟨p, hp, hen2, -⟩ := Proc.setCeed_ok q hok r
      rw [hp, Option.map_some] at hs'
      rw [← (Prod.mk.inj (Option.some.inj hs')).2, hen2]

/-- Specification: no set-up of the history chooses another backend than that of another object alive at that time. -/
def NoSwitch (h : List SimOp) : Prop :=
  ∀ t u i r wb n, h = t ++ .setup i r wb n :: u → ∀ j, j ≠ i → ∀ b, madeAs j false none t = some b → b = !r.isEmpty

theorem NoSwitch.prefix (h : List SimOp) (op : SimOp) (hn : NoSwitch (h ++ [op])) : NoSwitch h :=
  fun t u i r wb n he => hn t (u ++ [op]) i r wb n (by rw [he, List.append_assoc, List.cons_append])

theorem Sims.run_noSwitch (h : List SimOp) (hn : NoSwitch h) :
    ∃ s out, Sims.fresh.run h = some (s, out) ∧ out.length = h.length ∧ s.Ok ∧ ∀ i b, s.made i = some b → b = s.proc.enabled := by
  induction h using List.reverseRecOn with
  | nil => exact ⟨_, _, rfl, rfl, Sims.fresh_ok, fun i b hb => by simp [Sims.fresh] at hb⟩
  | append_singleton h op ih =>
    obtain ⟨s, out, hr, hl, hok, hinv⟩ := ih (hn.prefix h op)
    have hlook : ∀ i, ∃ o, s.look i = some o := by
      intro i
      cases hx : s.look i with
      | some o => exact ⟨o, rfl⟩
      | none =>
        obtain ⟨b, hb, hne⟩ := (Sims.look_spec s i).1.1 hx
        exact absurd (hinv i b hb) hne
    have hm' : ∀ i, s.made i = madeAs i false none h := (Sims.run_spec h Sims.fresh Sims.fresh_ok s out hr).2.2
    rw [Sims.run_snoc, hr, Option.bind_some]
    cases op with
    | setup i r wb n =>
      simp only [Sims.step]
      unfold Sims.setup
      by_cases hr' : refusesBS2002 wb n s.proc.enabled = true
      · rw [if_pos hr']
        exact ⟨s, out ++ [.refused], rfl, by simp [hl], hok, hinv⟩
      · rw [if_neg hr']
        obtain ⟨p, hp, hen, hok'⟩ := Proc.setCeed_ok s hok r
        rw [hp]
        refine ⟨_, _, rfl, by simp [hl], hok' _, fun j b hj => ?_⟩
        dsimp only at hj ⊢
        by_cases hij : j = i
        · subst hij
          rw [Function.update_self] at hj
          exact (Option.some.inj hj).symm
        · rw [Function.update_of_ne hij, hm'] at hj
          rw [hen]
          exact hn h [] i r wb n rfl j hij b hj
    | call i =>
      obtain ⟨o, ho⟩ := hlook i
      simp only [Sims.step, ho, Option.map_some]
      exact ⟨s, out ++ [o], rfl, by simp [hl], hok, hinv⟩
    | destroy i =>
      obtain ⟨o, ho⟩ := hlook i
      simp only [Sims.step, ho, Option.map_some]
      refine ⟨_, out ++ [o], rfl, by simp [hl], ⟨hok.cycle, hok.ceed⟩, fun j b hj => ?_⟩
      dsimp only at hj ⊢
      by_cases hij : j = i
      · subst hij; rw [Function.update_self] at hj; simp at hj
      · rw [Function.update_of_ne hij] at hj; exact hinv j b hj

/-- C122: if no set-up chooses another backend than that of another simulation alive at that time, no call of the process is undefined, in any interleaving of any number of simulations,
and every call is answered. Missing for the full property: other set-ups, `C122_switch_violated`. -/
theorem C122_defined_partial (h : List SimOp) (hn : NoSwitch h) : ∃ s out, Sims.fresh.run h = some (s, out) ∧ out.length = h.length := by
  obtain ⟨s, out, h1, h2, -⟩ := Sims.run_noSwitch h hn
  exact ⟨s, out, h1, h2⟩

theorem madeAs_kind (b : Bool) (i : ℕ) (h : List SimOp) (hk : ∀ j r wb n, SimOp.setup j r wb n ∈ h → (!r.isEmpty) = b) :
    ∀ on m, (∀ c, m = some c → c = b) → ∀ c, madeAs i on m h = some c → c = b := by
  induction h with
  | nil => intro on m hm c hc; exact hm c hc
  | cons op t ih =>
    intro on m hm c hc
    rw [madeAs_cons] at hc
    refine ih (fun j r wb n hj => hk j r wb n (List.mem_cons_of_mem _ hj)) _ _ (fun d hd => ?_) c hc
    cases op with
    | setup j r wb n =>
      have hb := hk j r wb n List.mem_cons_self
      simp only [madeAs] at hd
      split_ifs at hd
      · exact hm d hd
      · rw [← Option.some.inj hd]; exact hb
      · exact hm d hd
    | call j => exact hm d hd
    | destroy j =>
      simp only [madeAs] at hd
      split_ifs at hd
      exact hm d hd

/-- C122: in particular, if all set-ups of the process agree on whether to use libCEED (not on the resource), no call is undefined. -/
theorem C122_one_backend_partial (b : Bool) (h : List SimOp) (hk : ∀ j r wb n, SimOp.setup j r wb n ∈ h → (!r.isEmpty) = b) :
    ∃ s out, Sims.fresh.run h = some (s, out) ∧ out.length = h.length := by
  refine C122_defined_partial h fun t u i r wb n he j hj c hc => ?_
  have h1 := hk i r wb n (by rw [he]; simp)
  rw [h1]
  exact madeAs_kind b j t (fun j r wb n hm => hk j r wb n (by rw [he]; simp [hm])) _ _ (fun c hc => by simp at hc) c hc

/-- C122 refuted: after the set-up of another simulation with the other backend, every call on the first one, and its destruction, is undefined: the member of the union that was not
written is read. So whatever the resources are. -/
theorem C122_switch_violated (i j : ℕ) (hij : i ≠ j) (r r' : List Char) (hr : r.isEmpty ≠ r'.isEmpty) (wb wb' : WellBalancing) (hw : wb ≠ .bs2002) (hw' : wb' ≠ .bs2002) (n n' : ℕ) :
    Sims.fresh.run [.setup i r wb n, .setup j r' wb' n', .call i] = none ∧
    Sims.fresh.run [.setup i r wb n, .setup j r' wb' n', .destroy i] = none ∧
    ∃ s, Sims.fresh.run [.setup i r wb n, .setup j r' wb' n', .call j] = some (s, [.ready (!r.isEmpty), .ready (!r'.isEmpty), .ran (!r'.isEmpty)]) := by
  have hn : ∀ on, ¬ RefusedSetup wb n on := fun on h => hw h.1
  have hn' : ∀ on, ¬ RefusedSetup wb' n' on := fun on h => hw' h.1
  have hq : ∀ on, ¬ refusesBS2002 wb n on = true := fun on h => hn on ((refuses_iff wb n on).1 h)
  have hq' : ∀ on, ¬ refusesBS2002 wb' n' on = true := fun on h => hn' on ((refuses_iff wb' n' on).1 h)
  obtain ⟨p, hp, hpe, hpo⟩ := Proc.setCeed_ok Sims.fresh Sims.fresh_ok r
  obtain ⟨q, hq1, hqe, -⟩ := Proc.setCeed_ok ⟨p, Function.update Sims.fresh.made i (some p.enabled)⟩ (hpo _) r'
  dsimp only at hq1
  have h2 : Sims.fresh.run [.setup i r wb n, .setup j r' wb' n'] =
      some (⟨q, Function.update (Function.update Sims.fresh.made i (some p.enabled)) j (some q.enabled)⟩, [.ready (!r.isEmpty), .ready (!r'.isEmpty)]) := by
    simp only [Sims.run, Sims.step, Sims.setup, if_neg (hq _), if_neg (hq' _), hp, Option.map_some, Option.bind_some, hq1, hpe, hqe]
  obtain ⟨k1, k2, -⟩ := C122_undefined_iff _ _ _ h2
  have hm : madeAs i false none [.setup i r wb n, .setup j r' wb' n'] = some (!r.isEmpty) := by
    simp only [madeAs, if_neg (hn _), if_neg (hn' _), if_pos, if_neg (Ne.symm hij)]
  have he : enabledAfter false [.setup i r wb n, .setup j r' wb' n'] = !r'.isEmpty := by
    simp only [enabledAfter, if_neg (hn _), if_neg (hn' _)]
  have hd : (!r.isEmpty) ≠ !r'.isEmpty := fun h => hr (by simpa using h)
  refine ⟨(k1 i).2 ⟨_, hm, by rw [he]; exact hd⟩, (k2 i).2 ⟨_, hm, by rw [he]; exact hd⟩, ?_⟩
  have h3 := Sims.run_snoc [.setup i r wb n, .setup j r' wb' n'] (.call j) Sims.fresh
  rw [h2, Option.bind_some] at h3
  refine ⟨⟨q, Function.update (Function.update Sims.fresh.made i (some p.enabled)) j (some q.enabled)⟩, h3.trans ?_⟩
  simp only [Sims.step, Sims.look, Function.update_self, if_pos, Option.map_some, hqe]
  rfl

/-- Two simulations with libCEED, on different resources, interleaved; the second is destroyed first. -/
example : (∀ j r wb n, SimOp.setup j r wb n ∈ [SimOp.setup 0 ['c'] .none 0, .setup 1 ['g'] .hr 2, .call 0, .destroy 1, .call 0] → (!r.isEmpty) = true) ∧
    (Sims.fresh.run [SimOp.setup 0 ['c'] .none 0, .setup 1 ['g'] .hr 2, .call 0, .destroy 1, .call 0]).map Prod.snd =
      some [.ready true, .ready true, .ran true, .ran true, .ran true] := by
  refine ⟨fun j r wb n h => ?_, by decide⟩
  simp only [List.mem_cons, SimOp.setup.injEq, List.not_mem_nil, or_false, reduceCtorEq] at h
  rcases h with ⟨-, rfl, -⟩ | ⟨-, rfl, -⟩ <;> rfl

/-- A simulation with libCEED, destroyed before one with PETSc is set up: allowed by `NoSwitch`. -/
example : (Sims.fresh.run [SimOp.setup 0 ['c'] .none 0, .call 0, .destroy 0, .setup 1 [] .none 0, .call 1, .call 0]).map Prod.snd =
    some [.ready true, .ran true, .ran true, .ready false, .ran false, .early] := by decide

/-- So with `NoSwitch`, although the backend of the process changes. -/
example : NoSwitch [SimOp.setup 0 ['c'] .none 0, .destroy 0, .setup 1 [] .none 0] ∧
    enabledAfter false [SimOp.setup 0 ['c'] .none 0] = true ∧ enabledAfter false [SimOp.setup 0 ['c'] .none 0, .destroy 0, .setup 1 [] .none 0] = false := by
  refine ⟨fun t u i r wb n he j hj b hb => ?_, by decide, by decide⟩
  rcases t with _ | ⟨a, _ | ⟨a', _ | ⟨a'', t⟩⟩⟩
  · simp [madeAs] at hb
  · simp at he
  · simp only [List.cons_append, List.nil_append, List.cons.injEq, SimOp.setup.injEq] at he
    obtain ⟨rfl, rfl, -, -⟩ := he
    by_cases h0 : 0 = j <;> simp [madeAs, RefusedSetup, h0] at hb
  · simp at he

/-- The BS2002 well-balancing: accepted with libCEED in a new process, refused after. -/
example : (Sims.fresh.run [SimOp.setup 0 ['c'] .bs2002 0, .setup 1 ['c'] .bs2002 0]).map Prod.snd = some [.ready true, .refused] ∧
    Sims.fresh.run [SimOp.setup 0 ['c'] .none 0, .setup 1 [] .none 0, .call 0] = none := by
  refine ⟨by decide, ?_⟩
  exact (C122_switch_violated 0 1 (by decide) ['c'] [] (by decide) .none .none (by decide) (by decide) 0 0).1

end RDy
