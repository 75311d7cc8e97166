import Verif.Lemmas.Lifecycle

/-!
Properties C08 (initialise/finalise), C09 (shutdown order), C59 (CEED resource).
-/

namespace RDy

/-! ### Specifications -/

/-- Specification: the functions registered, in order, by API calls made in one
initialise/finalise cycle of a fresh process (`ci`: already initialised, `cr`: a CEED resource was
already selected). -/
def regLog : Bool → Bool → List LibOp → List Fn
  | _, _, [] => []
  | ci, cr, .init :: ops => (if ci then [] else [Fn.courant]) ++ regLog true cr ops
  | ci, cr, .register n :: ops => Fn.user n :: regLog ci cr ops
  | ci, cr, .setCeed (some (_ :: _)) :: ops => (if cr then [] else [Fn.ceed]) ++ regLog ci true ops
  | ci, cr, .setCeed _ :: ops => regLog ci cr ops
  | ci, cr, .finalize :: ops => regLog ci cr ops

/-- Specification: whether the library counts as initialised after a history. -/
def initSpec : Bool → List LibOp → Bool
  | b, [] => b
  | _, .init :: ops => initSpec true ops
  | _, .finalize :: ops => initSpec false ops
  | b, .register _ :: ops => initSpec b ops
  | b, .setCeed _ :: ops => initSpec b ops

/-- Specification: the CEED resource in force after a history without finalisation (`none` = CEED
disabled): the last requested one, an empty or missing request disabling CEED. -/
def ceedSpec : Option (List Char) → List LibOp → Option (List Char)
  | r, [] => r
  | _, .setCeed (some (c :: cs)) :: ops => ceedSpec (some (c :: cs)) ops
  | _, .setCeed _ :: ops => ceedSpec none ops
  | r, _ :: ops => ceedSpec r ops

/-! ### First-cycle simulation -/

theorem firstCycle_fresh : Proc.fresh.FirstCycle false false [] where
  holds := ⟨rfl, Or.inl ⟨rfl, rfl⟩⟩
  init := rfl
  cinit := rfl
  live := rfl
  creg := rfl
  count := rfl
  ctx := by simp [Proc.fresh]
  mem := by simp
  bal := rfl

/-- The first cycle: any history without finalisation runs without error, calls nothing, and
registers exactly the specified functions. -/
theorem firstCycle_run (ops : List LibOp) (hops : LibOp.finalize ∉ ops) (p : Proc) (ci cr : Bool)
    (fs : List Fn) (hp : p.FirstCycle ci cr fs) :
    ∃ q ci' cr', p.runOps ops = some (q, []) ∧ q.FirstCycle ci' cr' (fs ++ regLog ci cr ops) := by
  induction ops generalizing p ci cr fs with
  | nil => exact ⟨p, ci, cr, rfl, by simpa [regLog] using hp⟩
  | cons op ops ih =>
    have hops' : LibOp.finalize ∉ ops := fun h => hops (List.mem_cons_of_mem _ h)
    cases op with
    | finalize => simp at hops
    | register n =>
      obtain ⟨t', h1, h2⟩ := Proc.register_holds p fs (.user n) hp.holds
      have hc : ({ p with table := some t', num := p.num + 1 } : Proc).FirstCycle ci cr
          (fs ++ [.user n]) :=
        ⟨h2, hp.init, hp.cinit, hp.live, hp.creg, by rw [List.count_append, hp.count]; simp,
          hp.ctx, fun h => by simp [hp.mem h], hp.bal⟩
      obtain ⟨q, ci', cr', hq, hq2⟩ := ih hops' _ ci cr _ hc
      refine ⟨q, ci', cr', ?_, by simpa [regLog] using hq2⟩
      simp [Proc.runOps, Proc.step, h1, hq]
    | init =>
      cases ci with
      | true =>
        obtain ⟨q, ci', cr', hq, hq2⟩ := ih hops' p true cr fs hp
        refine ⟨q, ci', cr', ?_, by simpa [regLog] using hq2⟩
        simp [Proc.runOps, Proc.step, Proc.init, hp.init, hq]
      | false =>
        obtain ⟨t', h1, h2⟩ := Proc.register_holds { p with courantLive := true } fs .courant hp.holds
        have hc : ({ p with courantLive := true, table := some t', num := p.num + 1,
                            courantInit := true, initialized := true } : Proc).FirstCycle true cr
            (fs ++ [.courant]) :=
          ⟨h2, rfl, rfl, rfl, hp.creg, by rw [List.count_append, hp.count]; simp,
            hp.ctx, fun h => by simp [hp.mem h], hp.bal⟩
        obtain ⟨q, ci', cr', hq, hq2⟩ := ih hops' _ true cr _ hc
        refine ⟨q, ci', cr', ?_, by simpa [regLog] using hq2⟩
        have hi : p.init = some { p with courantLive := true, table := some t', num := p.num + 1,
                                         courantInit := true, initialized := true } := by
          have hi : ¬ p.initialized = true := by rw [hp.init]; simp
          have hci : ¬ p.courantInit = true := by rw [hp.cinit]; simp
          unfold Proc.init Proc.initCourant
          rw [if_neg hi, if_neg hci, h1]
          rfl
        simp only [Proc.runOps, Proc.step, hi, Option.map_some, Option.bind_some, hq]
        rfl
    | setCeed r =>
      by_cases hsame : p.ceedCtx.isSome ∧ r = some p.ceedResource
      · -- same resource: nothing happens
        have hcr : cr = true := hp.ctx hsame.1
        subst hcr
        have hreg : regLog ci true (.setCeed r :: ops) = regLog ci true ops := by
          rcases r with _ | (_ | ⟨c, cs⟩) <;> simp [regLog]
        obtain ⟨q, ci', cr', hq, hq2⟩ := ih hops' p ci true fs hp
        refine ⟨q, ci', cr', ?_, by rw [hreg]; exact hq2⟩
        simp only [Proc.runOps, Proc.step, Proc.setCeed]
        rw [if_pos hsame]; simp [hq]
      · have hd := hp.dropCeed
        have hdc := p.dropCeed_ctx
        rcases r with _ | (_ | ⟨c, cs⟩)
        · obtain ⟨q, ci', cr', hq, hq2⟩ := ih hops' _ ci cr fs hd
          refine ⟨q, ci', cr', ?_, by simpa [regLog] using hq2⟩
          simp only [Proc.runOps, Proc.step, Proc.setCeed]
          rw [if_neg hsame]; simp [hq]
        · obtain ⟨q, ci', cr', hq, hq2⟩ := ih hops' _ ci cr fs hd
          refine ⟨q, ci', cr', ?_, by simpa [regLog] using hq2⟩
          simp only [Proc.runOps, Proc.step, Proc.setCeed]
          rw [if_neg hsame]; simp [hq]
        · have hb0 := hd.bal
          unfold Proc.Balanced at hb0
          rw [hdc] at hb0
          simp only [Option.isSome_none] at hb0
          have hsc : p.setCeed (some (c :: cs)) = p.dropCeed.newCeed (c :: cs) := by
            simp only [Proc.setCeed]; rw [if_neg hsame]
          generalize p.dropCeed = d at *
          cases cr with
          | true =>
            have hc : ({ d with
                          ceedCtx := some (c :: cs), ceedResource := c :: cs,
                          created := d.created + 1 } : Proc).FirstCycle ci true fs :=
              ⟨hd.holds, hd.init, hd.cinit, hd.live, hd.creg, hp.count, by simp, hp.mem,
                by simp [Proc.Balanced]; simpa using hb0⟩
            obtain ⟨q, ci', cr', hq, hq2⟩ := ih hops' _ ci true fs hc
            refine ⟨q, ci', cr', ?_, by simpa [regLog] using hq2⟩
            have hcr : d.ceedRegistered = true := hd.creg
            simp only [Proc.runOps, Proc.step, hsc, Proc.newCeed]
            rw [if_pos hcr]
            simp only [Option.map_some, Option.bind_some, hq]
            rfl
          | false =>
            obtain ⟨t', h1, h2⟩ := Proc.register_holds
              { d with
                ceedCtx := some (c :: cs), ceedResource := c :: cs,
                created := d.created + 1 } fs .ceed hd.holds
            have hc : ({ d with
                          ceedCtx := some (c :: cs), ceedResource := c :: cs,
                          created := d.created + 1, table := some t',
                          num := d.num + 1, ceedRegistered := true } : Proc).FirstCycle ci
                  true (fs ++ [.ceed]) :=
              ⟨h2, hd.init, hd.cinit, hd.live, rfl, by rw [List.count_append, hp.count]; simp,
                by simp, by simp, by simp [Proc.Balanced]; simpa using hb0⟩
            obtain ⟨q, ci', cr', hq, hq2⟩ := ih hops' _ ci true _ hc
            refine ⟨q, ci', cr', ?_, by simpa [regLog] using hq2⟩
            have hcr : d.ceedRegistered = false := hd.creg
            have hcr' : ¬ d.ceedRegistered = true := by rw [hcr]; simp
            simp only [Proc.runOps, Proc.step, hsc, Proc.newCeed]
            rw [if_neg hcr', h1]
            simp only [Option.map_some, Option.bind_some, hq]
            rfl

theorem runOps_append (p : Proc) (a b : List LibOp) :
    p.runOps (a ++ b) = (p.runOps a).bind fun r => (r.1.runOps b).map fun r' => (r'.1, r.2 ++ r'.2) := by
  induction a generalizing p with
  | nil => cases h : p.runOps b <;> simp [Proc.runOps, h]
  | cons op ops ih =>
    simp only [List.cons_append, Proc.runOps]
    cases p.step op with
    | none => rfl
    | some r =>
      simp only [Option.bind_some, ih]
      cases r.1.runOps ops with
      | none => rfl
      | some r2 =>
        simp only [Option.bind_some, Option.map_some]
        cases r2.1.runOps b with
        | none => rfl
        | some r3 => simp [List.append_assoc]

theorem firstCycle_finalize (p : Proc) (ci cr : Bool) (fs : List Fn) (hp : p.FirstCycle ci cr fs) :
    ∃ q, p.finalize = some (q, fs.reverse) ∧ q.initialized = false ∧ q.table = none ∧
      q.num = fs.length ∧ q.courantLive = false ∧ q.ceedCtx = none ∧ q.Balanced ∧
      q.courantInit = ci ∧ q.ceedRegistered = cr := by
  obtain ⟨hn, h⟩ := hp.holds
  rcases h with ⟨rfl, ht⟩ | ⟨t, ht, h0, hl, htake⟩
  · have hci : ci = false := by
      have := hp.count; cases ci <;> simp_all
    have hcr : cr = false := by
      cases hcr : cr with
      | false => rfl
      | true => exact absurd (hp.mem hcr) (by simp)
    have hctx : p.ceedCtx = none := by
      cases h : p.ceedCtx with
      | none => rfl
      | some x => have := hp.ctx (by simp [h]); rw [hcr] at this; simp at this
    refine ⟨{ p with initialized := false }, by simp [Proc.finalize, ht], rfl, ht, hn, ?_, hctx,
      hp.bal, hp.cinit, hp.creg⟩
    exact hp.live.trans hci
  · obtain ⟨q, hq, hq1, hq2, hq3, hq4, hq5, hq6, hq7⟩ := Proc.callAll_holds t fs p hl htake
      (by rw [hp.count]; split_ifs <;> simp)
      (by
        intro hm
        have := List.count_pos_iff.2 hm
        rw [hp.count] at this
        rw [hp.live]
        cases ci <;> simp_all)
      hp.bal
    refine ⟨{ q with table := none, initialized := false }, ?_, rfl, rfl, ?_, ?_, ?_, hq7,
      hq3.trans hp.cinit, hq4.trans hp.creg⟩
    · simp only [Proc.finalize, ht, hn, hq, Option.map_some]
    · exact hq2.trans hn
    · change q.courantLive = false
      rw [hq5, hp.live]
      cases hci : ci with
      | false => rfl
      | true =>
        have := hp.count
        rw [hci, if_pos rfl] at this
        have hm : Fn.courant ∈ fs := List.count_pos_iff.1 (by omega)
        simp [hm]
    · change q.ceedCtx = none
      rw [hq6]
      split_ifs with h
      · rfl
      · cases hc : p.ceedCtx with
        | none => rfl
        | some x =>
          have := hp.mem (hp.ctx (by simp [hc]))
          exact absurd this h

/-! ### C09 -/

/-- C09: in a fresh process, for any history of API calls before the first finalisation, finalising
calls every registered function exactly once, last registered first – for any number of
registrations. -/
theorem C09_finalizers_reverse_order (ops : List LibOp) (hops : LibOp.finalize ∉ ops) :
    ∃ q, Proc.fresh.runOps (ops ++ [.finalize]) = some (q, (regLog false false ops).reverse) := by
  obtain ⟨p, ci, cr, h1, h2⟩ := firstCycle_run ops hops _ _ _ _ firstCycle_fresh
  rw [List.nil_append] at h2
  obtain ⟨q, hq, -⟩ := firstCycle_finalize p ci cr _ h2
  refine ⟨q, ?_⟩
  rw [runOps_append, h1]
  simp [Proc.runOps, Proc.step, hq]

example : LibOp.finalize ∉ [LibOp.init, .register 1, .register 2, .setCeed (some ['/'])] ∧
    regLog false false [LibOp.init, .register 1, .register 2, .setCeed (some ['/'])]
      = [.courant, .user 1, .user 2, .ceed] := by decide

/-- C09: in particular for any list of user functions (e.g. more than the initial 32 slots). -/
theorem C09_user_functions (ns : List ℕ) :
    ∃ q, Proc.fresh.runOps (ns.map LibOp.register ++ [.finalize])
      = some (q, (ns.map Fn.user).reverse) := by
  have h := C09_finalizers_reverse_order (ns.map LibOp.register)
    (by simp)
  have hr : ∀ ns : List ℕ, regLog false false (ns.map LibOp.register) = ns.map Fn.user := by
    intro ns
    induction ns with
    | nil => rfl
    | cons n ns ih => simp [regLog, ih]
  rwa [hr] at h

/-! ### C08 -/

/-- C08: initialisation is idempotent. -/
theorem C08_init_idempotent (p q : Proc) (h : p.init = some q) : q.init = some q := by
  unfold Proc.init at h
  split_ifs at h with hi
  · simp only [Option.some.injEq] at h; subst h; simp [Proc.init, hi]
  · cases hc : p.initCourant with
    | none => rw [hc] at h; simp at h
    | some r =>
      rw [hc] at h
      simp only [Option.map_some, Option.some.injEq] at h
      subst h
      simp [Proc.init]

example : ∃ q, Proc.fresh.init = some q ∧ q.initialized = true := ⟨_, rfl, rfl⟩

theorem register_initialized (p q : Proc) (f : Fn) (h : p.register f = some q) :
    q.initialized = p.initialized := by
  unfold Proc.register at h
  simp only at h
  split_ifs at h
  all_goals (simp only [Option.some.injEq] at h; subst h; rfl)

theorem setCeed_initialized (p q : Proc) (r : Option (List Char)) (h : p.setCeed r = some q) :
    q.initialized = p.initialized := by
  have h0 := p.dropCeed_frame.1
  unfold Proc.setCeed at h
  by_cases h1 : p.ceedCtx.isSome ∧ r = some p.ceedResource
  · rw [if_pos h1] at h
    simp only [Option.some.injEq] at h; rw [h]
  · rw [if_neg h1] at h
    rcases r with _ | (_ | ⟨c, cs⟩)
    · simp only [Option.some.injEq] at h; rw [← h]; exact h0
    · simp only [Option.some.injEq] at h; rw [← h]; exact h0
    · simp only [Proc.newCeed] at h
      by_cases h2 : p.dropCeed.ceedRegistered = true
      · rw [if_pos h2] at h
        simp only [Option.some.injEq] at h; rw [← h]; exact h0
      · rw [if_neg h2, Option.map_eq_some_iff] at h
        obtain ⟨a, ha, hb⟩ := h
        have := register_initialized _ _ _ ha
        rw [← hb]
        exact this.trans h0

/-- C08: over every history that does not end in undefined behaviour, `RDyInitialized` is true
exactly when the last initialise/finalise call was an initialise. -/
theorem C08_initialized_spec (ops : List LibOp) (p q : Proc) (fs : List Fn)
    (h : p.runOps ops = some (q, fs)) : q.initialized = initSpec p.initialized ops := by
  induction ops generalizing p fs with
  | nil => simp only [Proc.runOps, Option.some.injEq, Prod.mk.injEq] at h; rw [← h.1]; rfl
  | cons op ops ih =>
    simp only [Proc.runOps, Option.bind_eq_some_iff, Option.map_eq_some_iff] at h
    obtain ⟨r, hr, r', hr', he⟩ := h
    simp only [Prod.mk.injEq] at he
    have h2 := ih r.1 r'.2 (by rw [hr', ← he.1])
    rw [h2]
    cases op with
    | init =>
      simp only [Proc.step, Option.map_eq_some_iff] at hr
      obtain ⟨a, ha, rfl⟩ := hr
      have : a.initialized = true := by
        unfold Proc.init at ha
        split_ifs at ha with hi
        · simp only [Option.some.injEq] at ha; rw [← ha]; exact hi
        · rw [Option.map_eq_some_iff] at ha
          obtain ⟨b, -, rfl⟩ := ha; rfl
      simp [initSpec, this]
    | register n =>
      simp only [Proc.step, Option.map_eq_some_iff] at hr
      obtain ⟨a, ha, rfl⟩ := hr
      unfold Proc.register at ha
      simp only at ha
      split_ifs at ha
      all_goals (simp only [Option.some.injEq] at ha; subst ha; rfl)
    | setCeed r0 =>
      simp only [Proc.step, Option.map_eq_some_iff] at hr
      obtain ⟨a, ha, rfl⟩ := hr
      simp only [initSpec, setCeed_initialized _ _ _ ha]
    | finalize =>
      simp only [Proc.step, Proc.finalize] at hr
      cases ht : p.table with
      | none => rw [ht] at hr; simp only [Option.some.injEq] at hr; subst hr; rfl
      | some t =>
        rw [ht] at hr
        simp only [Option.map_eq_some_iff] at hr
        obtain ⟨a, -, rfl⟩ := hr; rfl

example : ∃ q fs, Proc.fresh.runOps [.init, .register 3, .finalize] = some (q, fs) ∧
    fs = [.user 3, .courant] := ⟨_, _, rfl, rfl⟩

/-- C08 (one cycle): in a fresh process each finalizer registered is run exactly as often as it was
registered. -/
theorem C08_each_once_partial (ops : List LibOp) (hops : LibOp.finalize ∉ ops) :
    ∃ q fs, Proc.fresh.runOps (ops ++ [.finalize]) = some (q, fs) ∧
      fs.Perm (regLog false false ops) ∧ q.initialized = false := by
  obtain ⟨q, hq⟩ := C09_finalizers_reverse_order ops hops
  refine ⟨q, _, hq, List.reverse_perm _, ?_⟩
  rw [C08_initialized_spec _ _ _ _ hq]
  have : ∀ (ops : List LibOp) (b : Bool), initSpec b (ops ++ [.finalize]) = false := by
    intro ops
    induction ops with
    | nil => intro b; rfl
    | cons op ops ih => intro b; cases op <;> simp [initSpec, ih]
  exact this _ _

example : ∃ q fs, Proc.fresh.runOps ([.init, .register 4, .setCeed none, .register 5] ++ [.finalize]) =
    some (q, fs) ∧ q.initialized = false := by
  obtain ⟨q, fs, h, -, hq⟩ := C08_each_once_partial [.init, .register 4, .setCeed none, .register 5] (by simp)
  exact ⟨q, fs, h, hq⟩

/-- C08 refuted for later cycles: after any first cycle in which the library was initialised,
registering any function and finalising again calls through a null pointer (or writes outside the
table): the registration count is not reset. -/
theorem C08_second_cycle_violated (ops : List LibOp) (hops : LibOp.finalize ∉ ops)
    (hinit : LibOp.init ∈ ops) (n : ℕ) :
    Proc.fresh.runOps (ops ++ [.finalize, .register n, .finalize]) = none := by
  obtain ⟨p, ci, cr, h1, h2⟩ := firstCycle_run ops hops _ _ _ _ firstCycle_fresh
  rw [List.nil_append] at h2
  obtain ⟨q, hq, hq1, hq2, hq3, -⟩ := firstCycle_finalize p ci cr _ h2
  have hpos : 0 < (regLog false false ops).length := by
    have : ∀ (ops : List LibOp) (cr : Bool), LibOp.init ∈ ops → 0 < (regLog false cr ops).length := by
      intro ops
      induction ops with
      | nil => intro cr h; simp at h
      | cons op ops ih =>
        intro cr h
        cases op with
        | init => simp [regLog]
        | register n => simp [regLog]
        | finalize => simp only [List.mem_cons, reduceCtorEq, false_or] at h; exact ih cr h
        | setCeed r =>
          simp only [List.mem_cons, reduceCtorEq, false_or] at h
          rcases r with _ | (_ | ⟨c, cs⟩)
          · exact ih cr h
          · exact ih cr h
          · simp only [regLog, List.length_append]; have := ih true h; omega
    exact this ops false hinit
  rw [runOps_append, h1]
  simp only [Option.bind_some, Proc.runOps, Proc.step, hq]
  obtain ⟨k, hk⟩ : ∃ k, q.num = k + 1 := ⟨q.num - 1, by omega⟩
  by_cases h32 : q.num < 32
  · have hreg : q.register (.user n) = some { q with
        table := some ((List.replicate 32 none).set q.num (some (.user n))), num := q.num + 1 } := by
      simp [Proc.register, hq2, h32]
    simp only [hreg, Option.map_some, Option.bind_some, Proc.finalize, Proc.callAll, hk]
    rw [hk] at h32
    have hget1 : ((List.replicate 32 (none : Option Fn)).set (k + 1) (some (.user n)))[k + 1]?
        = some (some (.user n)) := by simp [h32]
    have hget2 : ((List.replicate 32 (none : Option Fn)).set (k + 1) (some (.user n)))[k]?
        = some none := by
      rw [List.getElem?_set_ne (by omega), List.getElem?_replicate, if_pos (by omega)]
    rw [hget1]
    simp only [Proc.call, Option.bind_some, hget2, Option.map_none, Option.bind_none]
  · have hreg : q.register (.user n) = none := by
      simp [Proc.register, hq2, h32]
    simp [hreg]

example : LibOp.finalize ∉ [LibOp.init] ∧ LibOp.init ∈ [LibOp.init] := by decide

/-- C08 refuted (Courant diagnostics): re-initialising after finalising leaves the library
"initialised" with its MPI reduction objects already freed. -/
theorem C08_reinit_courant_violated :
    ∃ q fs, Proc.fresh.runOps [.init, .finalize, .init] = some (q, fs) ∧
      q.initialized = true ∧ q.courantLive = false := ⟨_, _, rfl, rfl, rfl⟩

/-! ### C59 -/

theorem register_ceed (p q : Proc) (f : Fn) (h : p.register f = some q) :
    q.ceedCtx = p.ceedCtx ∧ q.ceedResource = p.ceedResource := by
  unfold Proc.register at h
  simp only at h
  split_ifs at h
  all_goals (simp only [Option.some.injEq] at h; subst h; exact ⟨rfl, rfl⟩)

/-- The live context is the one of the remembered, non-empty resource. -/
def Proc.CeedOk (p : Proc) : Prop := ∀ x, p.ceedCtx = some x → x = p.ceedResource ∧ x ≠ []

theorem setCeed_ceed (p q : Proc) (r : Option (List Char)) (hres : p.CeedOk)
    (h : p.setCeed r = some q) : q.CeedOk ∧ q.ceedCtx = ceedSpec none [.setCeed r] := by
  unfold Proc.CeedOk at *
  unfold Proc.setCeed at h
  by_cases h1 : p.ceedCtx.isSome ∧ r = some p.ceedResource
  · rw [if_pos h1] at h
    simp only [Option.some.injEq] at h
    subst h
    refine ⟨hres, ?_⟩
    obtain ⟨x, hx⟩ := Option.isSome_iff_exists.1 h1.1
    obtain ⟨hx2, hx3⟩ := hres x hx
    rw [h1.2, hx, hx2]
    rw [hx2] at hx3
    cases hc : p.ceedResource with
    | nil => exact absurd hc hx3
    | cons c cs => rfl
  · rw [if_neg h1] at h
    have hnone := p.dropCeed_ctx
    rcases r with _ | (_ | ⟨c, cs⟩)
    · simp only [Option.some.injEq] at h
      rw [← h]
      refine ⟨fun x hx => ?_, hnone⟩
      rw [hnone] at hx; simp at hx
    · simp only [Option.some.injEq] at h
      rw [← h]
      refine ⟨fun x hx => ?_, hnone⟩
      rw [hnone] at hx; simp at hx
    · simp only [Proc.newCeed] at h
      have key : q.ceedCtx = some (c :: cs) ∧ q.ceedResource = c :: cs := by
        split_ifs at h
        · simp only [Option.some.injEq] at h; rw [← h]; exact ⟨rfl, rfl⟩
        · rw [Option.map_eq_some_iff] at h
          obtain ⟨a, ha, hb⟩ := h
          have := register_ceed _ _ _ ha
          rw [← hb]
          exact this
      refine ⟨fun x hx => ?_, key.1⟩
      rw [key.1] at hx
      simp only [Option.some.injEq] at hx
      subst hx
      exact ⟨key.2.symm, by simp⟩

theorem init_ceed (p q : Proc) (h : p.init = some q) :
    q.ceedCtx = p.ceedCtx ∧ q.ceedResource = p.ceedResource := by
  unfold Proc.init at h
  split_ifs at h with hi
  · simp only [Option.some.injEq] at h; rw [h]; exact ⟨rfl, rfl⟩
  · rw [Option.map_eq_some_iff] at h
    obtain ⟨a, ha, rfl⟩ := h
    unfold Proc.initCourant at ha
    split_ifs at ha
    · simp only [Option.some.injEq] at ha; rw [ha]; exact ⟨rfl, rfl⟩
    · rw [Option.map_eq_some_iff] at ha
      obtain ⟨b, hb, rfl⟩ := ha
      have := register_ceed _ _ _ hb
      exact ⟨this.1, this.2⟩

theorem runOps_ceed (ops : List LibOp) (hops : LibOp.finalize ∉ ops) (p q : Proc) (fs : List Fn)
    (hp : p.CeedOk) (h : p.runOps ops = some (q, fs)) :
    q.ceedCtx = ceedSpec p.ceedCtx ops := by
  induction ops generalizing p fs with
  | nil => simp only [Proc.runOps, Option.some.injEq, Prod.mk.injEq] at h; rw [← h.1]; rfl
  | cons op ops ih =>
    have hops' : LibOp.finalize ∉ ops := fun h => hops (List.mem_cons_of_mem _ h)
    simp only [Proc.runOps, Option.bind_eq_some_iff, Option.map_eq_some_iff] at h
    obtain ⟨r, hr, r', hr', he⟩ := h
    simp only [Prod.mk.injEq] at he
    have hr'' : r.1.runOps ops = some (q, r'.2) := by rw [hr', ← he.1]
    cases op with
    | finalize => simp at hops
    | init =>
      simp only [Proc.step, Option.map_eq_some_iff] at hr
      obtain ⟨a, ha, rfl⟩ := hr
      have hc := init_ceed _ _ ha
      rw [ih hops' a r'.2 (by unfold Proc.CeedOk; rw [hc.1, hc.2]; exact hp) hr'', hc.1]
      rfl
    | register n =>
      simp only [Proc.step, Option.map_eq_some_iff] at hr
      obtain ⟨a, ha, rfl⟩ := hr
      have hc := register_ceed _ _ _ ha
      rw [ih hops' a r'.2 (by unfold Proc.CeedOk; rw [hc.1, hc.2]; exact hp) hr'', hc.1]
      rfl
    | setCeed r0 =>
      simp only [Proc.step, Option.map_eq_some_iff] at hr
      obtain ⟨a, ha, rfl⟩ := hr
      have hc := setCeed_ceed _ _ _ hp ha
      rw [ih hops' a r'.2 hc.1 hr'', hc.2]
      rcases r0 with _ | (_ | ⟨c, cs⟩) <;> rfl

/-- C59: over every history before the first finalisation, CEED is enabled exactly when the last
requested resource was non-empty, the live context is the one of that resource, and exactly the
enabled context is alive (every replaced context was destroyed). -/
theorem C59_ceed_follows_last_request (ops : List LibOp) (hops : LibOp.finalize ∉ ops) :
    ∃ q, Proc.fresh.runOps ops = some (q, []) ∧ q.ceedCtx = ceedSpec none ops ∧
      q.created = q.destroyed + (if (ceedSpec none ops).isSome then 1 else 0) := by
  obtain ⟨q, ci, cr, h1, h2⟩ := firstCycle_run ops hops _ _ _ _ firstCycle_fresh
  have hc := runOps_ceed ops hops Proc.fresh q [] (by intro x hx; simp [Proc.fresh] at hx) h1
  refine ⟨q, h1, hc, ?_⟩
  have := h2.bal
  unfold Proc.Balanced at this
  rw [hc] at this
  exact this

example : LibOp.finalize ∉ [LibOp.init, .setCeed (some ['a']), .setCeed none, .setCeed (some ['b'])] ∧
    ceedSpec none [LibOp.init, .setCeed (some ['a']), .setCeed none, .setCeed (some ['b'])]
      = some ['b'] := by decide

/-- C59: the first finalisation destroys every CEED context created. -/
theorem C59_first_finalize_frees_all (ops : List LibOp) (hops : LibOp.finalize ∉ ops) :
    ∃ q fs, Proc.fresh.runOps (ops ++ [.finalize]) = some (q, fs) ∧ q.ceedCtx = none ∧
      q.created = q.destroyed := by
  obtain ⟨p, ci, cr, h1, h2⟩ := firstCycle_run ops hops _ _ _ _ firstCycle_fresh
  rw [List.nil_append] at h2
  obtain ⟨q, hq, -, -, -, -, h5, h6, -⟩ := firstCycle_finalize p ci cr _ h2
  refine ⟨q, (regLog false false ops).reverse, ?_, h5, ?_⟩
  · rw [runOps_append, h1]; simp [Proc.runOps, Proc.step, hq]
  · unfold Proc.Balanced at h6; rw [h5] at h6; simpa using h6

/-- C59 refuted for later cycles: a context selected after the first finalisation is not destroyed
by the next one, because its clean-up function is registered only once per process. -/
theorem C59_second_cycle_leak_violated :
    ∃ q fs, Proc.fresh.runOps [.setCeed (some ['a']), .finalize, .setCeed (some ['b']), .finalize]
      = some (q, fs) ∧ q.ceedCtx = some ['b'] ∧ q.created = q.destroyed + 1 :=
  ⟨_, _, rfl, rfl, rfl⟩

end RDy
