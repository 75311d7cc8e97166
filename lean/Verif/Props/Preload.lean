import Verif.Model.Preload
import Verif.Props.Restart
import Verif.Props.TimeSeries

/-!
C101: the option `-preload` is for timings; it does not change results. Specification: the run with the option has, after any
number of calls of `RDyAdvance`, the time, step number and solution of the run without.
-/

noncomputable section

namespace RDy

variable {U D Φ : Type}

/-- C101: without the option nothing is different from the run modelled elsewhere. -/
theorem C101_off (P : Physics U D Φ) (r : RunSt U D Φ) (n : ℕ) : r.runWith P false n = r.run P n := by
  induction n with
  | zero => rfl
  | succ n ih =>
    unfold RunSt.runWith RunSt.run
    rw [ih]
    obtain ⟨h1, h2⟩ := solve_last (P.step ((r.run P n).forced P).2) (r.run P n).sim.nextDt
      ((r.run P n).sim.time + toSeconds (r.run P n).sim.coupling (r.run P n).sim.unit)
      ((r.run P n).sim.budget (r.run P n).sim.nextDt (toSeconds (r.run P n).sim.coupling (r.run P n).sim.unit))
      ⟨(r.run P n).sim.time, (r.run P n).sim.step, (r.run P n).u⟩
      ⟨(r.run P n).sim.time, (r.run P n).sim.step, (r.run P n).u⟩
    unfold RunSt.advanceWith RunSt.advance RunSt.traceWith Sim.advance
    simp only [Bool.false_eq_true, if_false]
    unfold RunSt.trace
    rw [h1, h2]

/-- The calls of the monitors are the same if whole steps make up the interval. -/
theorem traceWith_eq (P : Physics U D Φ) (r : RunSt U D Φ) (k : ℕ) (hdt : 0 < r.sim.nextDt)
    (hk : toSeconds r.sim.coupling r.sim.unit = k * r.sim.nextDt) : r.traceWith P true = r.traceWith P false := by
  unfold RunSt.traceWith
  simp only [if_true, Bool.false_eq_true, if_false]
  unfold RunSt.trace TsState.solveFrom preloaded calibrate stepAfter
  dsimp only
  rw [if_neg]
  rintro ⟨h1, h2⟩
  rw [hk] at h1 h2
  have a1 : (1 : ℝ) < k := by
    by_contra hc
    have : (k : ℝ) * r.sim.nextDt ≤ 1 * r.sim.nextDt := mul_le_mul_of_nonneg_right (not_lt.mp hc) hdt.le
    linarith only [this, h1]
  have a2 : (k : ℝ) < 2 := by
    by_contra hc
    have : (2 : ℝ) * r.sim.nextDt ≤ k * r.sim.nextDt := mul_le_mul_of_nonneg_right (not_lt.mp hc) hdt.le
    linarith only [this, h2]
  have b1 : 1 < k := by exact_mod_cast a1
  have b2 : k < 2 := by exact_mod_cast a2
  omega

/-- C101. If in every call whole steps make up the coupling interval, the option changes nothing: after any number of calls the
run is the one without it. -/
theorem C101_same_partial (P : Physics U D Φ) (r : RunSt U D Φ)
    (hfit : ∀ n, 0 < (r.run P n).sim.nextDt ∧
      ∃ k : ℕ, toSeconds (r.run P n).sim.coupling (r.run P n).sim.unit = k * (r.run P n).sim.nextDt) (n : ℕ) :
    r.runWith P true n = r.run P n := by
  rw [← C101_off]
  induction n with
  | zero => rfl
  | succ n ih =>
    unfold RunSt.runWith
    rw [ih]
    obtain ⟨hdt, k, hk⟩ := hfit n
    rw [← C101_off] at hdt hk
    unfold RunSt.advanceWith
    rw [traceWith_eq P _ k hdt hk]

/-- With a fixed step the condition only has to be met by the configuration. -/
theorem C101_fixed_step (P : Physics U D Φ) (r : RunSt U D Φ) (ha : r.sim.adaptive = none) (hdt : 0 < r.sim.dt) (k : ℕ)
    (hk : toSeconds r.sim.coupling r.sim.unit = k * r.sim.dt) (n : ℕ) : r.runWith P true n = r.run P n := by
  have inv : ∀ m, (r.run P m).sim.adaptive = none ∧ (r.run P m).sim.dt = r.sim.dt ∧
      (r.run P m).sim.coupling = r.sim.coupling ∧ (r.run P m).sim.unit = r.sim.unit := by
    intro m
    induction m with
    | zero => exact ⟨ha, rfl, rfl, rfl⟩
    | succ m ih =>
      obtain ⟨h1, h2, h3, h4⟩ := ih
      unfold RunSt.run RunSt.advance Sim.advance
      refine ⟨h1, ?_, h3, h4⟩
      simp only [Sim.nextDt, h1, h2]
  refine C101_same_partial P r (fun m => ?_) n
  obtain ⟨h1, h2, h3, h4⟩ := inv m
  have hd : (r.run P m).sim.nextDt = r.sim.dt := by simp only [Sim.nextDt, h1, h2]
  rw [hd, h3, h4]
  exact ⟨hdt, k, hk⟩

/-- A run in seconds with steps of `dt`, coupling interval `c`, for the equation `u' = u`. -/
def exGrow (dt c : ℝ) : RunSt ℝ Unit Unit := ⟨⟨0, 0, dt, some 5, .seconds, 100, c, none, none⟩, 1, (), ()⟩

/-- Euler steps of `u' = u`. -/
def exGrowP : Physics ℝ Unit Unit := ⟨fun _ h u => u + h * u, fun _ _ _ => 0, fun _ _ _ => ((), ())⟩

example (n : ℕ) : (exGrow 2 10).runWith exGrowP true n = (exGrow 2 10).run exGrowP n :=
  C101_fixed_step _ _ rfl (by norm_num [exGrow]) 5 (by norm_num [exGrow, toSeconds]) n

/-- C101 fails if steps do not make up the interval: the extra step leaves the size of the shortened last step behind, and the
solve takes all its steps with this size. For `u' = u` with steps of 6 and an interval of 10, the solution after one call is 75
with the option and 35 without; the run takes three steps instead of two. -/
theorem C101_steps_violated :
    ((exGrow 6 10).runWith exGrowP true 1).u = 75 ∧ ((exGrow 6 10).run exGrowP 1).u = 35 ∧
    ((exGrow 6 10).runWith exGrowP true 1).sim.step = 3 ∧ ((exGrow 6 10).run exGrowP 1).sim.step = 2 ∧
    ((exGrow 6 10).runWith exGrowP true 1).sim.time = 10 ∧ ((exGrow 6 10).run exGrowP 1).sim.time = 10 := by
  rw [← C101_off]
  have h1 : (exGrow 6 10).traceWith exGrowP false = [⟨0, 0, 1⟩, ⟨6, 1, 7⟩, ⟨10, 2, 35⟩] := by
    simp only [RunSt.traceWith, Bool.false_eq_true, if_false, RunSt.trace, exGrow, exGrowP, toSeconds, Sim.budget, Sim.nextDt]
    norm_num [solve]
  have h2 : (exGrow 6 10).traceWith exGrowP true = [⟨0, 0, 1⟩, ⟨4, 1, 5⟩, ⟨8, 2, 25⟩, ⟨10, 3, 75⟩] := by
    simp only [RunSt.traceWith, if_true, TsState.solveFrom, preloaded, calibrate, stepAfter, exGrow, exGrowP, toSeconds, Sim.budget, Sim.nextDt]
    norm_num [solve]
  simp only [RunSt.runWith, RunSt.advanceWith, h1, h2, List.getLastD_cons, List.getLastD_nil, and_self]

/-- C101 fails for the time series of boundary fluxes, whatever the steps: the flux of the extra step is accumulated and not
removed. A run of one step with flux `f` has a line for step 0 with the flux `f`, instead of 0 (and with CEED, where fluxes of
evaluations are added up, C110, the line for step 1 has `2 f`). -/
theorem C101_fluxes_violated (ceed : Bool) (len dt f : ℝ) (hl : 0 < len) (hdt : 0 < dt) (hf : f ≠ 0) :
    ∃ a b, bfRun ceed 1 len bfInit (fluxEvents false dt (fun _ => f) 0 1) = some a ∧
      bfRun ceed 1 len bfInit (fluxEvents true dt (fun _ => f) 0 1) = some b ∧
      a.out = [(0, 0), (1, len * f)] ∧ b.out = [(0, len * f), (1, if ceed then len * (2 * f) else len * f)] ∧ a.out ≠ b.out := by
  have hne : dt ≠ 0 := hdt.ne'
  have hv : len * (dt * f) / dt = len * f := by field_simp
  have hv2 : len * (dt * (f + f)) / dt = len * (2 * f) := by field_simp; ring
  refine ⟨⟨0, if ceed then f else 0, 0, 1, [(0, 0), (1, len * f)]⟩,
    ⟨0, if ceed then f + f else 0, 0, 1, [(0, len * f), (1, if ceed then len * (2 * f) else len * f)]⟩, ?_, ?_, rfl, rfl, by
      simp [hl.ne', hf]⟩ <;>
    cases ceed <;> simp [fluxEvents, bfRun, bfRhs, bfMonitor, bfAccumulate, bfValue, bfInit, hne, hv, hv2]

example := C101_fluxes_violated false 2 1 3 (by norm_num) (by norm_num) (by norm_num)

end RDy
