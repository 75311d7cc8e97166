import Verif.Model.Lifecycle
import Mathlib.Data.List.Induction
import Mathlib.Data.List.Basic

/-! Helper lemmas for the process-state model. -/

namespace RDy

/-- The table holds exactly the functions `fs`, in order of registration. -/
def Proc.Holds (p : Proc) (fs : List Fn) : Prop :=
  p.num = fs.length ∧
    ((fs = [] ∧ p.table = none) ∨
      ∃ t, p.table = some t ∧ 0 < t.length ∧ fs.length ≤ t.length ∧ t.take fs.length = fs.map some)

theorem Proc.register_holds (p : Proc) (fs : List Fn) (f : Fn) (h : p.Holds fs) :
    ∃ t', p.register f = some { p with table := some t', num := p.num + 1 } ∧
      ({ p with table := some t', num := p.num + 1 } : Proc).Holds (fs ++ [f]) := by
  obtain ⟨hn, h⟩ := h
  rcases h with ⟨rfl, ht⟩ | ⟨t, ht, h0, hl, htake⟩
  · refine ⟨(List.replicate 32 none).set 0 (some f), ?_, ?_⟩
    · simp [Proc.register, ht, hn]
    · refine ⟨by simp [hn], Or.inr ⟨_, rfl, by simp, by simp, ?_⟩⟩
      simp
  · set t1 := if p.num = t.length then t ++ List.replicate t.length none else t with ht1
    have hlen : p.num < t1.length := by
      rw [ht1]; split_ifs with hc
      · simp; omega
      · omega
    have htk : t1.take fs.length = fs.map some := by
      rw [ht1]; split_ifs with hc
      · rw [List.take_append_of_le_length (by omega), htake]
      · exact htake
    refine ⟨t1.set p.num (some f), ?_, ?_⟩
    · simp only [Proc.register, ht]
      rw [← ht1, if_pos hlen]
    · refine ⟨by simp [hn], Or.inr ⟨_, rfl, by simp; omega, by simp; omega, ?_⟩⟩
      rw [List.length_append, List.length_singleton, List.take_add_one, List.map_append]
      congr 1
      · rw [hn, List.take_set_of_le (by omega), htk]
      · rw [hn] at hlen ⊢
        simp [hlen]

/-- Balance of CEED contexts. -/
def Proc.Balanced (p : Proc) : Prop :=
  p.created = p.destroyed + (if p.ceedCtx.isSome then 1 else 0)

theorem Proc.setCeed_none (p : Proc) : p.setCeed none = some p.dropCeed := by
  unfold Proc.setCeed
  rw [if_neg (by simp)]

theorem Proc.dropCeed_ctx (p : Proc) : p.dropCeed.ceedCtx = none := by
  unfold Proc.dropCeed
  by_cases h : p.ceedCtx.isSome = true
  · rw [if_pos h]
  · rw [if_neg h]; simpa using h

theorem Proc.dropCeed_balanced (p : Proc) (h : p.Balanced) : p.dropCeed.Balanced := by
  unfold Proc.dropCeed
  by_cases hc : p.ceedCtx.isSome = true
  · unfold Proc.Balanced at *
    rw [if_pos hc] at *
    simpa using h
  · rw [if_neg hc]; exact h

/-- `dropCeed` touches only the context and the counter. -/
theorem Proc.dropCeed_frame (p : Proc) : p.dropCeed.initialized = p.initialized ∧
    p.dropCeed.table = p.table ∧ p.dropCeed.num = p.num ∧ p.dropCeed.courantInit = p.courantInit ∧
    p.dropCeed.courantLive = p.courantLive ∧ p.dropCeed.ceedRegistered = p.ceedRegistered := by
  unfold Proc.dropCeed
  by_cases hc : p.ceedCtx.isSome = true
  · rw [if_pos hc]; exact ⟨rfl, rfl, rfl, rfl, rfl, rfl⟩
  · rw [if_neg hc]; exact ⟨rfl, rfl, rfl, rfl, rfl, rfl⟩

theorem Proc.callAll_holds (t : List (Option Fn)) (fs : List Fn) (p : Proc)
    (hl : fs.length ≤ t.length) (htake : t.take fs.length = fs.map some)
    (hc : fs.count .courant ≤ 1) (hlive : Fn.courant ∈ fs → p.courantLive = true)
    (hb : p.Balanced) :
    ∃ q, Proc.callAll t fs.length p = some (q, fs.reverse) ∧ q.table = p.table ∧ q.num = p.num ∧
      q.courantInit = p.courantInit ∧ q.ceedRegistered = p.ceedRegistered ∧
      q.courantLive = (p.courantLive && !decide (Fn.courant ∈ fs)) ∧
      q.ceedCtx = (if Fn.ceed ∈ fs then none else p.ceedCtx) ∧ q.Balanced := by
  induction fs using List.reverseRecOn generalizing p with
  | nil => exact ⟨p, by simp [Proc.callAll], rfl, rfl, rfl, rfl, by simp, by simp, hb⟩
  | append_singleton fs f ih =>
    have hget : t[fs.length]? = some (some f) := by
      have h1 : (t.take (fs ++ [f]).length)[fs.length]? = some (some f) := by
        rw [htake]; simp
      rw [List.getElem?_take_of_lt (by simp)] at h1
      exact h1
    have htake' : t.take fs.length = fs.map some := by
      have h1 := congrArg (List.take fs.length) htake
      rw [List.take_take, List.map_append, List.take_left' (by simp)] at h1
      simpa using h1
    rw [List.length_append, List.length_singleton]
    simp only [Proc.callAll, hget]
    rw [List.count_append] at hc
    -- the state after calling `f`
    have hcall : ∃ r, p.call f = some r ∧ r.table = p.table ∧ r.num = p.num ∧
        r.courantInit = p.courantInit ∧ r.ceedRegistered = p.ceedRegistered ∧
        r.courantLive = (p.courantLive && !decide (f = Fn.courant)) ∧
        r.ceedCtx = (if f = Fn.ceed then none else p.ceedCtx) ∧ r.Balanced := by
      cases f with
      | courant =>
        have := hlive (by simp)
        refine ⟨{ p with courantLive := false }, by simp [Proc.call, this], rfl, rfl, rfl, rfl,
          by simp, by simp, hb⟩
      | ceed =>
        obtain ⟨h1, h2, h3, h4, h5, h6⟩ := p.dropCeed_frame
        exact ⟨p.dropCeed, by rw [Proc.call, Proc.setCeed_none], h2, h3, h4, h6, by simp [h5],
          by simpa using p.dropCeed_ctx, p.dropCeed_balanced hb⟩
      | user n => exact ⟨p, rfl, rfl, rfl, rfl, rfl, by simp, by simp, hb⟩
    obtain ⟨r, hr, hr1, hr2, hr3, hr4, hr5, hr6, hr7⟩ := hcall
    have hlive' : Fn.courant ∈ fs → r.courantLive = true := by
      intro hm
      rw [hr5]
      have hne : f ≠ Fn.courant := by
        rintro rfl
        have := List.count_pos_iff.2 hm
        simp at hc; omega
      simp [hlive (by simp [hm]), hne]
    obtain ⟨q, hq, hq1, hq2, hq3, hq4, hq5, hq6, hq7⟩ := ih r
      (by simp at hl; omega) htake' (by omega) hlive' hr7
    refine ⟨q, ?_, hq1.trans hr1, hq2.trans hr2, hq3.trans hr3, hq4.trans hr4, ?_, ?_, hq7⟩
    · simp [hr, hq]
    · rw [hq5, hr5]
      by_cases h1 : Fn.courant ∈ fs <;> by_cases h2 : f = Fn.courant <;> simp [h1, h2, eq_comm]
    · rw [hq6, hr6]
      by_cases h1 : Fn.ceed ∈ fs <;> by_cases h2 : f = Fn.ceed <;> simp [h1, h2, eq_comm]

/-- Invariant of the first initialise/finalise cycle of a process: `ci` says whether the library
has been initialised, `cr` whether a CEED resource was ever selected, `fs` is the list of
functions registered so far. -/
structure Proc.FirstCycle (p : Proc) (ci cr : Bool) (fs : List Fn) : Prop where
  holds : p.Holds fs
  init : p.initialized = ci
  cinit : p.courantInit = ci
  live : p.courantLive = ci
  creg : p.ceedRegistered = cr
  count : fs.count .courant = if ci then 1 else 0
  ctx : p.ceedCtx.isSome → cr = true
  mem : cr = true → Fn.ceed ∈ fs
  bal : p.Balanced

theorem Proc.FirstCycle.dropCeed {p : Proc} {ci cr : Bool} {fs : List Fn}
    (h : p.FirstCycle ci cr fs) : p.dropCeed.FirstCycle ci cr fs := by
  obtain ⟨h1, h2, h3, h4, h5, h6⟩ := p.dropCeed_frame
  refine ⟨?_, h1.trans h.init, h4.trans h.cinit, h5.trans h.live, h6.trans h.creg, h.count, ?_,
    h.mem, p.dropCeed_balanced h.bal⟩
  · have := h.holds
    unfold Proc.Holds at *
    rw [h2, h3]; exact this
  · rw [p.dropCeed_ctx]; simp

end RDy
