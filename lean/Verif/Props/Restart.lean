import Verif.Model.Restart
import Verif.Props.Advance
import Verif.Props.Checkpoint
import Verif.Props.Forcing
import Verif.Props.TimeSeries

/-!
# C97: a restarted run continues the interrupted one

A user who restarts a run from one of its checkpoints expects the times, the steps and the solutions of
the run that was never interrupted.
-/

noncomputable section

namespace RDy

variable {U D Φ : Type}

/-! ## Specification -/

/-- The forcing has no memory that matters: whatever happened before, the data it leaves behind are a
function `G` of the time. `I` is what the forcing object maintains. -/
def Memoryless (P : Physics U D Φ) (φ₀ : Φ) (d₀ : D) (G : ℝ → D) : Prop :=
  ∃ I : Φ → D → Prop, I φ₀ d₀ ∧
    ∀ φ d t, I φ d → I (P.force φ t d).1 (P.force φ t d).2 ∧ (P.force φ t d).2 = G t

/-- Two runs show the same to their user from now on: in the next call of `RDyAdvance` the monitors see
the same times, step numbers and solutions, and the same step size is used. -/
def SameNext (P : Physics U D Φ) (a b : RunSt U D Φ) : Prop :=
  a.trace P = b.trace P ∧ a.sim.nextDt = b.sim.nextDt

/-! ## The model of a run is that of C03 -/

theorem solve_ne_nil (step : ℝ → U → U) (dt M : ℝ) (n : ℕ) (s : Snap U) :
    solve step dt M n s ≠ [] := by
  cases n with
  | zero => simp [solve]
  | succ n => simp only [solve]; split_ifs <;> simp

theorem solve_last (step : ℝ → U → U) (dt M : ℝ) (n : ℕ) (s d : Snap U) :
    ((solve step dt M n s).getLastD d).t = (tsLoop dt M n s.t).1 ∧
    ((solve step dt M n s).getLastD d).step = s.step + (tsLoop dt M n s.t).2 := by
  induction n generalizing s with
  | zero => simp [solve, tsLoop]
  | succ n ih =>
    by_cases h : M ≤ s.t
    · simp [solve, tsLoop, h]
    · simp only [solve, tsLoop, if_neg h]
      obtain ⟨a, l, hl⟩ := List.exists_cons_of_ne_nil
        (solve_ne_nil step dt M n ⟨s.t + min dt (M - s.t), s.step + 1, step (min dt (M - s.t)) s.u⟩)
      have e : (s :: solve step dt M n
          ⟨s.t + min dt (M - s.t), s.step + 1, step (min dt (M - s.t)) s.u⟩).getLastD d =
          (solve step dt M n
          ⟨s.t + min dt (M - s.t), s.step + 1, step (min dt (M - s.t)) s.u⟩).getLastD d := by
        rw [hl]; simp [List.getLastD]
      rw [e]
      have := ih ⟨s.t + min dt (M - s.t), s.step + 1, step (min dt (M - s.t)) s.u⟩
      refine ⟨this.1, ?_⟩
      rw [this.2]
      simp only
      omega

/-- C97 (one clock): time and step number after a call of `RDyAdvance` are those the monitors are given
last, and the solution belongs to them. -/
theorem C97_clock (P : Physics U D Φ) (r : RunSt U D Φ) :
    ∃ s ∈ r.trace P, (r.advance P).sim.time = s.t ∧ (r.advance P).sim.step = s.step ∧
      (r.advance P).u = s.u := by
  have h := solve_last (P.step (r.forced P).2) r.sim.nextDt
    (r.sim.time + toSeconds r.sim.coupling r.sim.unit)
    (r.sim.budget r.sim.nextDt (toSeconds r.sim.coupling r.sim.unit)) ⟨r.sim.time, r.sim.step, r.u⟩
    ⟨r.sim.time, r.sim.step, r.u⟩
  refine ⟨(r.trace P).getLastD ⟨r.sim.time, r.sim.step, r.u⟩, ?_, h.1.symm, h.2.symm, rfl⟩
  have hne : r.trace P ≠ [] := solve_ne_nil _ _ _ _ _
  rw [List.getLastD_eq_getLast?, List.getLast?_eq_getLast_of_ne_nil hne]
  exact List.getLast_mem hne

/-! ## Continuation -/

theorem run_sim_frame (P : Physics U D Φ) (r : RunSt U D Φ) (n : ℕ) :
    (r.run P n).sim.unit = r.sim.unit ∧ (r.run P n).sim.stop = r.sim.stop ∧
    (r.run P n).sim.coupling = r.sim.coupling ∧ (r.run P n).sim.adaptive = r.sim.adaptive ∧
    (r.run P n).sim.maxSteps = r.sim.maxSteps := by
  induction n with
  | zero => simp [RunSt.run]
  | succ n ih => simpa [RunSt.run, RunSt.advance, Sim.advance] using ih

/-- The clock of a run is that of C03, for some sequence of measured Courant numbers. -/
theorem run_sim (P : Physics U D Φ) (hP : ∀ d dt l, 0 ≤ P.courant d dt l) (r : RunSt U D Φ) (n : ℕ) :
    ∃ cns : List ℝ, cns.length = n ∧ (∀ c ∈ cns, 0 ≤ c) ∧ (r.run P n).sim = r.sim.run cns := by
  induction n with
  | zero => exact ⟨[], rfl, by simp, rfl⟩
  | succ n ih =>
    obtain ⟨cns, hl, h0, hc⟩ := ih
    refine ⟨cns ++ [P.courant ((r.run P n).forced P).2 (r.run P n).sim.nextDt ((r.run P n).trace P)],
      by simp [hl], ?_, ?_⟩
    · intro c h
      rcases List.mem_append.1 h with h | h
      · exact h0 c h
      · rw [List.mem_singleton.1 h]; exact hP _ _ _
    · simp only [RunSt.run, RunSt.advance, Sim.run, List.foldl_append, List.foldl_cons, List.foldl_nil]
      rw [hc]
      rfl

theorem runSt_inv (P : Physics U D Φ) (r : RunSt U D Φ) (I : Φ → D → Prop) (h0 : I r.frc r.data)
    (h : ∀ φ d t, I φ d → I (P.force φ t d).1 (P.force φ t d).2) (n : ℕ) :
    I (r.run P n).frc (r.run P n).data := by
  induction n with
  | zero => exact h0
  | succ n ih => exact h _ _ _ ih

/-- Two runs whose clocks, solutions and next step sizes agree and whose forcings give the same data do
the same in the next call. -/
theorem same_next (P : Physics U D Φ) (a b : RunSt U D Φ) (ht : a.sim.time = b.sim.time)
    (hs : a.sim.step = b.sim.step) (hu : a.u = b.u) (hd : a.sim.nextDt = b.sim.nextDt)
    (hf : (a.forced P).2 = (b.forced P).2) (hc : a.sim.coupling = b.sim.coupling)
    (hn : a.sim.unit = b.sim.unit) (hm : a.sim.maxSteps = b.sim.maxSteps)
    (hst : a.sim.stop = b.sim.stop) (hA : a.sim.adaptive = b.sim.adaptive) :
    SameNext P a b ∧ (a.advance P).sim = (b.advance P).sim ∧ (a.advance P).u = (b.advance P).u := by
  have htr : a.trace P = b.trace P := by
    unfold RunSt.trace Sim.budget
    rw [ht, hs, hu, hd, hf, hc, hn, hm]
  refine ⟨⟨htr, hd⟩, ?_, ?_⟩
  · unfold RunSt.advance Sim.advance Sim.budget
    simp only [htr, hd, hf, ht, hs, hc, hn, hm, hst, hA]
  · unfold RunSt.advance
    simp only [htr, ht, hs, hu]

/-- C97 (continuation): let a run be set up as `r0` and take `i` calls of `RDyAdvance`; let a checkpoint
hold the time, the step number and the solution reached then, and the step size of the following call.
If the forcing has no memory, then the run restarted from it does in every later call what the
uninterrupted run does: the monitors see the same times, step numbers and solutions, with the same
step sizes; so do the clock and the solution after each call. Fixed and adaptive steps alike.

Missing from the full property: checkpoints within a coupling interval
(`C97_overshoot_violated`, `C97_forcing_shift_violated`), the last checkpoint of a run with adaptive
steps (`C97_last_checkpoint_violated`), forcing with memory (`C97_hourly_violated`). -/
theorem C97_continue_partial (P : Physics U D Φ) (r0 : RunSt U D Φ) (G : ℝ → D)
    (hG : Memoryless P r0.frc r0.data G) (h0 : r0.sim.courant = none) (i : ℕ) (f : CkSnap U)
    (ht : f.t = (r0.run P i).sim.time) (hs : f.step = (r0.run P i).sim.step)
    (hu : f.u = (r0.run P i).u) (hd : f.dt = (r0.run P i).sim.nextDt) (j : ℕ) :
    SameNext P ((restart r0 f).run P j) (r0.run P (i + j)) ∧
    ((restart r0 f).run P (j + 1)).sim = (r0.run P (i + j + 1)).sim ∧
    ((restart r0 f).run P (j + 1)).u = (r0.run P (i + j + 1)).u := by
  obtain ⟨I, hI0, hI⟩ := hG
  have inv := runSt_inv P r0 I hI0 (fun φ d t h => (hI φ d t h).1)
  have inv' := runSt_inv P (restart r0 f) I hI0 (fun φ d t h => (hI φ d t h).1)
  induction j with
  | zero =>
    obtain ⟨f1, f2, f3, f4, f5⟩ := run_sim_frame P r0 i
    refine same_next P (restart r0 f) (r0.run P i) ht hs hu ?_ ?_ f3.symm f1.symm f5.symm f2.symm f4.symm
    · rw [← hd]
      unfold Sim.nextDt restart
      simp only [h0]
      cases r0.sim.adaptive <;> rfl
    · have e : ((restart r0 f).forced P).2 = G f.t := (hI _ _ _ hI0).2
      rw [e, RunSt.forced, (hI _ _ _ (inv i)).2, ht]
  | succ j ih =>
    obtain ⟨_, e1, e2⟩ := ih
    have e3 : i + (j + 1) = i + j + 1 := by omega
    rw [e3]
    refine same_next P _ _ (by rw [e1]) (by rw [e1]) e2 (by rw [e1]) ?_ (by rw [e1]) (by rw [e1])
      (by rw [e1]) (by rw [e1]) (by rw [e1])
    rw [RunSt.forced, RunSt.forced, (hI _ _ _ (inv' (j + 1))).2, (hI _ _ _ (inv (i + j + 1))).2, e1]

/-- A run with a tank as its only cell, filled by rain: `U` is the depth, `D` the rainfall rate. -/
def tank : Physics ℝ ℝ (Homog × ℝ) := ⟨fun d dt u => u + dt * d, fun _ _ _ => 0, rainForce⟩

/-- C97 (homogeneous rainfall has no memory): with at least one sample in the file, the rate handed to
RDycore is the one a lookup in the file gives for the time of the call, whatever happened before. -/
theorem C97_rain_memoryless (step : ℝ → ℝ → U → U) (cn : ℝ → ℝ → List (Snap U) → ℝ) (file : List ℝ)
    (interp : Bool) (hf : 2 ≤ file.length) (d₀ : ℝ) :
    ∃ G : ℝ → ℝ, Memoryless ⟨step, cn, rainForce⟩ (openHomog file interp, 0) d₀ G ∧
      ∀ t, ∃ k, getCurrentData (fun i => file.getD i 0) (file.length / 2) t interp =
        some (k, G t) := by
  have hex : ∀ t, ∃ p, getCurrentData (fun i => file.getD i 0) (file.length / 2) t interp = some p := by
    intro t
    unfold getCurrentData
    rw [if_neg (by omega)]
    split
    · exact ⟨_, rfl⟩
    · cases interp
      · exact ⟨_, rfl⟩
      · exact ⟨_, rfl⟩
  choose p hp using hex
  refine ⟨fun t => (p t).2, ⟨fun φ _ => Held φ.1 φ.2 ∧ φ.1.d = (fun i => file.getD i 0) ∧
    φ.1.n = file.length / 2 ∧ φ.1.interp = interp, ?_, ?_⟩, fun t => ⟨(p t).1, hp t⟩⟩
  · exact ⟨Or.inr (Or.inl (by simp [openHomog])), rfl, rfl, rfl⟩
  · rintro φ d t ⟨h1, h2, h3, h4⟩
    have hg : getCurrentData φ.1.d φ.1.n t φ.1.interp = some ((p t).1, (p t).2) := by
      rw [h2, h3, h4]; exact hp t
    obtain ⟨s', e1, e2, e3, e4, e5⟩ := setHomog_step φ.1 φ.2 h1 t _ _ hg
    have e : rainForce φ t d = ((s', (p t).2), (p t).2) := by
      unfold rainForce; rw [e1]
    simp only [e]
    exact ⟨⟨e2, e3.trans h2, e4.trans h3, e5.trans h4⟩, trivial⟩

/-- A run of the tank with adaptive steps, rain from a file, restarted after two calls. -/
example (j : ℕ) : ∃ r0 : RunSt ℝ ℝ (Homog × ℝ), r0.sim.adaptive = some ⟨0.5, 2⟩ ∧
    SameNext tank ((restart r0 ⟨(r0.run tank 2).sim.time, (r0.run tank 2).sim.nextDt,
      (r0.run tank 2).sim.step, (r0.run tank 2).u⟩).run tank j) (r0.run tank (2 + j)) := by
  obtain ⟨G, hG, _⟩ := C97_rain_memoryless tank.step tank.courant [0, 1, 10, 2] false (by simp) 0
  have hG' : Memoryless tank (openHomog [0, 1, 10, 2] false, 0) 0 G := hG
  exact ⟨⟨⟨0, 0, 1, none, .seconds, 100, 10, some ⟨0.5, 2⟩, none⟩, 0, 0, (openHomog [0, 1, 10, 2] false, 0)⟩,
    rfl, (C97_continue_partial tank
      ⟨⟨0, 0, 1, none, .seconds, 100, 10, some ⟨0.5, 2⟩, none⟩, 0, 0, (openHomog [0, 1, 10, 2] false, 0)⟩
      G hG' rfl 2 _ rfl rfl rfl rfl j).1⟩

/-- C97 (the file): what the previous theorem asks of the state is what is found after the file was
written, on any number of processes, and read by a run on any other number (see C29): time, step
number and step size as they are, the solution in natural ordering. -/
theorem C97_through_file (s r : CkState) (fmt : CkFormat) (base : Str) (hn : fmt.nameOk base)
    (hs : s.refined = false) (hr : r.refined = false) (hsz : s.size = r.size)
    (r0 : RunSt (ℕ → ℝ) D Φ) (k : ℕ) (hk : s.step = k) :
    ∃ r', ckRead false (base ++ fmt.ext) (ckWrite s fmt) r = .ok r' ∧
      (restart r0 ⟨s.time, s.dt, k, s.natural⟩).sim.time = r'.time ∧
      (restart r0 ⟨s.time, s.dt, k, s.natural⟩).sim.dt = r'.dt ∧
      ((restart r0 ⟨s.time, s.dt, k, s.natural⟩).sim.step : ℤ) = r'.step ∧
      (restart r0 ⟨s.time, s.dt, k, s.natural⟩).u = r'.natural := by
  obtain ⟨r', h1, h2, h3, h4, _, _, h7, _⟩ := C29_round_trip_partial s r fmt base hn hs hr hsz
  exact ⟨r', h1, h2.symm, h4.symm, by rw [h3, hk]; rfl, funext fun n => (h7 n).symm⟩

example : (⟨4, 30, 3, 3, 10, -1, false, Equiv.refl ℕ, 5, fun n => n⟩ : CkState).size =
    (⟨2, 0, 1, 1, 0, -1, false, Equiv.swap 0 1, 5, fun _ => 0⟩ : CkState).size ∧
    CkFormat.hdf5.nameOk ['c', '1'] := ⟨rfl, by simp only [CkFormat.nameOk]; decide⟩

/-! ## What is on disk -/

theorem solve_steps_ge (step : ℝ → U → U) (dt M : ℝ) (n : ℕ) (s x : Snap U)
    (hx : x ∈ solve step dt M n s) : s.step ≤ x.step := by
  induction n generalizing s with
  | zero => simp only [solve, List.mem_singleton] at hx; rw [hx]
  | succ n ih =>
    simp only [solve] at hx
    split_ifs at hx
    · simp only [List.mem_singleton] at hx; rw [hx]
    · rcases List.mem_cons.1 hx with h | h
      · rw [h]
      · have := ih _ h
        simp only at this
        omega

theorem solve_tail (step : ℝ → U → U) (dt M : ℝ) (n : ℕ) (s : Snap U) :
    ∃ l, solve step dt M n s = s :: l ∧ ∀ x ∈ l, s.step < x.step := by
  cases n with
  | zero => exact ⟨[], rfl, by simp⟩
  | succ n =>
    simp only [solve]
    by_cases h : M ≤ s.t
    · rw [if_pos h]; exact ⟨[], rfl, by simp⟩
    · rw [if_neg h]
      refine ⟨_, rfl, fun x hx => ?_⟩
      have := solve_steps_ge step dt M n _ x hx
      simp only at this
      omega

theorem run_step_mono (P : Physics U D Φ) (r : RunSt U D Φ) {a b : ℕ} (h : a ≤ b) :
    (r.run P a).sim.step ≤ (r.run P b).sim.step := by
  induction h with
  | refl => exact le_rfl
  | step _ ih =>
    refine ih.trans ?_
    simp only [RunSt.run, RunSt.advance, Sim.advance]
    omega

/-- C97 (the file on disk): if a run has gone on for at least one further call of `RDyAdvance`, with a
step taken in it, the file of the step at which call `i` ended holds what `C97_continue_partial` asks
for: it was written again at the start of the following call, with the step size of that call. -/
theorem C97_on_disk (P : Physics U D Φ) (r0 : RunSt U D Φ) (c : ℤ) (i n : ℕ) (hi : i < n)
    (hstep : (r0.run P i).sim.step < (r0.run P (i + 1)).sim.step)
    (hdue : checkpointDue c (r0.run P i).sim.step = true) :
    onDisk (r0.allWritten P c n) (r0.run P i).sim.step =
      some ⟨(r0.run P i).sim.time, (r0.run P i).sim.nextDt, (r0.run P i).sim.step, (r0.run P i).u⟩ := by
  have key : ∀ m, i < m →
      ((r0.allWritten P c m).filter fun f => f.step = (r0.run P i).sim.step) =
      ((r0.allWritten P c i).filter fun f => f.step = (r0.run P i).sim.step) ++
        [⟨(r0.run P i).sim.time, (r0.run P i).sim.nextDt, (r0.run P i).sim.step, (r0.run P i).u⟩] := by
    intro m hm
    induction m with
    | zero => omega
    | succ m ih =>
      have e : r0.allWritten P c (m + 1) = r0.allWritten P c m ++ (r0.run P m).written P c := by
        unfold RunSt.allWritten
        rw [List.range_succ, List.flatMap_append]
        simp
      rw [e, List.filter_append]
      obtain ⟨l, hl, hlt⟩ := solve_tail (P.step ((r0.run P m).forced P).2) (r0.run P m).sim.nextDt
        ((r0.run P m).sim.time + toSeconds (r0.run P m).sim.coupling (r0.run P m).sim.unit)
        ((r0.run P m).sim.budget (r0.run P m).sim.nextDt
          (toSeconds (r0.run P m).sim.coupling (r0.run P m).sim.unit))
        ⟨(r0.run P m).sim.time, (r0.run P m).sim.step, (r0.run P m).u⟩
      have htr : (r0.run P m).trace P =
          ⟨(r0.run P m).sim.time, (r0.run P m).sim.step, (r0.run P m).u⟩ :: l := hl
      by_cases hmi : m = i
      · subst hmi
        congr 1
        unfold RunSt.written
        rw [htr, List.filter_cons_of_pos (by simpa using hdue), List.map_cons,
          List.filter_cons_of_pos (by simp)]
        congr 1
        rw [List.filter_eq_nil_iff]
        intro a ha
        rw [List.mem_map] at ha
        obtain ⟨x, hx, rfl⟩ := ha
        have := hlt x (List.mem_of_mem_filter hx)
        simp only at this
        simp only [decide_eq_true_eq]
        omega
      · rw [ih (by omega), List.append_assoc]
        congr 1
        have hnil : (((r0.run P m).written P c).filter fun f => f.step = (r0.run P i).sim.step) = [] := by
          rw [List.filter_eq_nil_iff]
          intro a ha
          unfold RunSt.written at ha
          rw [List.mem_map] at ha
          obtain ⟨x, hx, rfl⟩ := ha
          have h1 := List.mem_of_mem_filter hx
          have h2 := run_step_mono P r0 (a := i + 1) (b := m) (by omega)
          have h3 : (r0.run P m).sim.step ≤ x.step := by
            rw [htr] at h1
            rcases List.mem_cons.1 h1 with h | h
            · rw [h]
            · have := hlt x h
              simp only at this
              omega
          simp only [decide_eq_true_eq]
          omega
        rw [hnil]
        rfl
  unfold onDisk
  rw [key n hi]
  simp

/-- The tank with steps of one second and calls of ten seconds: the file of step 10 after three
calls. -/
example : ∃ r0 : RunSt ℝ ℝ (Homog × ℝ), (r0.run tank 1).sim.step = 10 ∧
    (r0.run tank 1).sim.step < (r0.run tank 2).sim.step ∧
    checkpointDue 5 (r0.run tank 1).sim.step = true := by
  have e : ∀ r : RunSt ℝ ℝ (Homog × ℝ), r.sim = ⟨0, 0, 1, some 100, .seconds, 100, 10, none, none⟩ →
      (r.run tank 1).sim.step = 10 ∧ (r.run tank 2).sim.step = 20 := by
    intro r hr
    have hval : ∀ n, n ≤ 10 → (r.run tank n).sim.step = n * 10 := by
      intro n hn
      obtain ⟨cns, hl, _, hc⟩ := run_sim tank (fun _ _ _ => le_rfl) r n
      rw [hc, hr]
      have h10 : ⌈toSeconds (10 : ℝ) TimeUnit.seconds / 1⌉₊ = 10 := by
        rw [show toSeconds (10 : ℝ) TimeUnit.seconds / 1 = ((10 : ℕ) : ℝ) by norm_num [toSeconds],
          Nat.ceil_natCast]
      have := (C03_run_fixed ⟨0, 0, 1, some 100, .seconds, 100, 10, none, none⟩ 100 cns rfl rfl
        (by norm_num) (by norm_num [toSeconds]) (by simp only [h10, hl]; omega)).2
      rw [this]
      simp only [h10, hl]
      omega
    exact ⟨hval 1 (by norm_num), hval 2 (by norm_num)⟩
  obtain ⟨e1, e2⟩ := e ⟨⟨0, 0, 1, some 100, .seconds, 100, 10, none, none⟩, 0, 0, (openHomog [0, 1] false, 0)⟩ rfl
  exact ⟨_, e1, by rw [e1, e2]; norm_num, by rw [e1]; decide⟩

/-! ## Adaptive steps: the last checkpoint -/

/-- C97 fails for the last checkpoint of a run with adaptive steps: the file written at the end of the
last call holds the step size of that call, and the measured Courant number is not stored. The run
restarted from it begins with the old step size, whereas a run that goes on adapts it (unless the
number measured happens to be the target). -/
theorem C97_last_checkpoint_violated (P : Physics U D Φ) (r0 : RunSt U D Φ) (c : ℤ) (n : ℕ)
    (h0 : r0.sim.courant = none) (a : AdaptiveCfg) (ha : r0.sim.adaptive = some a) (hv : a.Valid)
    (cn : ℝ) (hcn : (r0.run P (n + 1)).sim.courant = some cn) (hc0 : 0 ≤ cn) (hct : cn ≠ a.target)
    (hdt : 0 < (r0.run P (n + 1)).sim.dt)
    (hi : (r0.run P (n + 1)).sim.dt < toSeconds r0.sim.coupling r0.sim.unit)
    (hdue : checkpointDue c (r0.run P (n + 1)).sim.step = true) :
    ∃ f, onDisk (r0.allWritten P c (n + 1)) (r0.run P (n + 1)).sim.step = some f ∧
      f.t = (r0.run P (n + 1)).sim.time ∧ f.u = (r0.run P (n + 1)).u ∧
      (restart r0 f).sim.nextDt ≠ (r0.run P (n + 1)).sim.nextDt := by
  have hne : (r0.run P n).trace P ≠ [] := solve_ne_nil _ _ _ _ _
  have hsl := solve_last (P.step ((r0.run P n).forced P).2) (r0.run P n).sim.nextDt
    ((r0.run P n).sim.time + toSeconds (r0.run P n).sim.coupling (r0.run P n).sim.unit)
    ((r0.run P n).sim.budget (r0.run P n).sim.nextDt
      (toSeconds (r0.run P n).sim.coupling (r0.run P n).sim.unit))
    ⟨(r0.run P n).sim.time, (r0.run P n).sim.step, (r0.run P n).u⟩
    ⟨(r0.run P n).sim.time, (r0.run P n).sim.step, (r0.run P n).u⟩
  obtain ⟨l, x, hl⟩ : ∃ l x, (r0.run P n).trace P = l ++ [x] :=
    ⟨_, _, (List.dropLast_append_getLast hne).symm⟩
  have hx : ((r0.run P n).trace P).getLastD
      ⟨(r0.run P n).sim.time, (r0.run P n).sim.step, (r0.run P n).u⟩ = x := by
    rw [hl]; simp [List.getLastD_eq_getLast?]
  have ht : x.t = (r0.run P (n + 1)).sim.time := by rw [← hx]; exact hsl.1
  have hs : x.step = (r0.run P (n + 1)).sim.step := by rw [← hx]; exact hsl.2
  have hu : x.u = (r0.run P (n + 1)).u := by rw [← hx]; rfl
  refine ⟨⟨x.t, (r0.run P n).sim.nextDt, x.step, x.u⟩, ?_, ht, hu, ?_⟩
  · unfold onDisk RunSt.allWritten RunSt.written
    rw [List.range_succ, List.flatMap_append, List.filter_append]
    simp only [List.flatMap_cons, List.flatMap_nil, List.append_nil, hl, List.filter_append,
      List.map_append]
    rw [← hs] at hdue ⊢
    simp [hdue]
  · obtain ⟨f1, f2, f3, f4, f5⟩ := run_sim_frame P r0 (n + 1)
    have e1 : (restart r0 ⟨x.t, (r0.run P n).sim.nextDt, x.step, x.u⟩).sim.nextDt =
        (r0.run P (n + 1)).sim.dt := by
      unfold Sim.nextDt restart
      simp only [h0]
      cases r0.sim.adaptive <;> rfl
    have e2 : (r0.run P (n + 1)).sim.nextDt =
        adaptDt a (toSeconds r0.sim.coupling r0.sim.unit) (r0.run P (n + 1)).sim.dt cn := by
      unfold Sim.nextDt
      rw [f4, ha, hcn, f3, f1]
    rw [e1, e2]
    generalize (r0.run P (n + 1)).sim.dt = dt at *
    generalize toSeconds r0.sim.coupling r0.sim.unit = I at *
    obtain ⟨v1, -, v2⟩ := hv
    unfold adaptDt
    by_cases hlt : cn < a.target
    · rw [if_pos hlt, clampTo_eq_min]
      have hinc : 1 < increaseFactor a cn := by
        unfold increaseFactor
        split_ifs with hz
        · exact v2
        · have : 0 < cn := lt_of_le_of_ne hc0 (Ne.symm hz)
          exact lt_min (by rw [lt_div_iff₀ this]; linarith) v2
      have : dt < min I (dt * increaseFactor a cn) := lt_min hi (by nlinarith)
      exact this.ne
    · rw [if_neg hlt]
      have hgt : a.target < cn := lt_of_le_of_ne (not_lt.1 hlt) (Ne.symm hct)
      have : a.target / cn < 1 := by rw [div_lt_one (by linarith)]; exact hgt
      have : dt * (a.target / cn) < dt := by nlinarith
      exact this.ne'

/-- One call of ten steps of a second with a target of one half and a measured number of zero: the
next step may be two seconds long, the restarted run takes one of one second. -/
example : ∃ r0 : RunSt ℝ ℝ (Homog × ℝ), ∃ f, onDisk (r0.allWritten tank 10 1) 10 = some f ∧
    (restart r0 f).sim.nextDt ≠ (r0.run tank 1).sim.nextDt := by
  have h10 : ⌈toSeconds (10 : ℝ) TimeUnit.seconds / 1⌉₊ = 10 := by
    rw [show toSeconds (10 : ℝ) TimeUnit.seconds / 1 = ((10 : ℕ) : ℝ) by norm_num [toSeconds],
      Nat.ceil_natCast]
  have hst : (RunSt.run tank ⟨⟨0, 0, 1, none, .seconds, 100, 10, some ⟨0.5, 2⟩, none⟩, 0, 0,
      (openHomog [0, 1] false, 0)⟩ 1).sim.step = 10 := by
    have := (C03_advance_exact ⟨0, 0, 1, none, .seconds, 100, 10, some ⟨0.5, 2⟩, none⟩ 0
      (by norm_num [Sim.nextDt]) (by norm_num [toSeconds]) (by simp [Sim.nextDt, Sim.budget])).2
    simp only [Sim.nextDt, h10] at this
    exact this
  obtain ⟨f, h1, _, _, h2⟩ := C97_last_checkpoint_violated tank ⟨⟨0, 0, 1, none, .seconds, 100, 10,
    some ⟨0.5, 2⟩, none⟩, 0, 0, (openHomog [0, 1] false, 0)⟩ 10 0 rfl ⟨0.5, 2⟩ rfl
    (by norm_num [AdaptiveCfg.Valid]) 0 rfl le_rfl (by norm_num)
    (by simp [RunSt.run, RunSt.advance, Sim.advance, Sim.nextDt])
    (by norm_num [RunSt.run, RunSt.advance, Sim.advance, Sim.nextDt, toSeconds])
    (by rw [hst]; decide)
  rw [hst] at h1
  exact ⟨_, f, h1, h2⟩

/-! ## Checkpoints within a coupling interval -/

/-- C97 fails for checkpoints within a coupling interval, if steps are adaptive: the calls of the
restarted run end at the time of the checkpoint plus whole intervals, and the driver's loop goes on
beyond the end of the simulation: a run that was to end at `stop`, `N` intervals from the start, ends
`ρ` later, where `ρ` is how far into its interval the checkpoint was taken. -/
theorem C97_overshoot_violated (P : Physics U D Φ) (hP : ∀ d dt l, 0 ≤ P.courant d dt l)
    (r0 : RunSt U D Φ) (h0 : r0.sim.courant = none) (a : AdaptiveCfg) (ha : r0.sim.adaptive = some a)
    (hv : a.Valid) (hm : r0.sim.maxSteps = none) (hu : Supported r0.sim.unit)
    (hi : 0 < r0.sim.coupling) (i N : ℕ) (hN : r0.sim.stop = N * r0.sim.coupling) (hiN : i < N)
    (f : CkSnap U) (hd : 0 < f.dt) (ρ : ℝ) (h1 : 0 < ρ) (h2 : ρ + 1e-13 ≤ r0.sim.coupling)
    (hf : f.t = toSeconds (i * r0.sim.coupling + ρ) r0.sim.unit) :
    (∀ j, j < N - i → ¬ ((restart r0 f).run P j).sim.finished) ∧
    ((restart r0 f).run P (N - i)).sim.finished ∧
    fromSeconds ((restart r0 f).run P (N - i)).sim.time r0.sim.unit = r0.sim.stop + ρ := by
  obtain ⟨φ, hφ, e⟩ := secondsPer_pos hu
  have hφ' : (0 : ℝ) < φ := by exact_mod_cast hφ
  have hI : 0 < toSeconds r0.sim.coupling r0.sim.unit := by
    rw [C01_toSeconds_factor _ _ _ e]; positivity
  have htime : ∀ j, fromSeconds ((restart r0 f).run P j).sim.time r0.sim.unit =
      (i + j) * r0.sim.coupling + ρ := by
    intro j
    obtain ⟨cns, hl, hc, hs⟩ := run_sim P hP (restart r0 f) j
    rw [hs, (C03_run_adaptive (restart r0 f).sim a cns ha hv hm hd hI hc
      (by intro c hc'; simp only [restart] at hc'; rw [h0] at hc'; cases hc')).1, hl]
    simp only [restart]
    rw [hf, C01_fromSeconds_factor _ _ _ e, C01_toSeconds_factor _ _ _ e, C01_toSeconds_factor _ _ _ e]
    field_simp
    ring
  have hunit : ∀ j, ((restart r0 f).run P j).sim.unit = r0.sim.unit :=
    fun j => (run_sim_frame P (restart r0 f) j).1
  have hstop : ∀ j, ((restart r0 f).run P j).sim.stop = r0.sim.stop :=
    fun j => (run_sim_frame P (restart r0 f) j).2.1
  have hcast : ((N - i : ℕ) : ℝ) = N - i := by rw [Nat.cast_sub hiN.le]
  refine ⟨fun j hj => ?_, ?_, ?_⟩
  · unfold Sim.finished
    rw [hunit, hstop, htime, hN]
    have : (j : ℝ) + i + 1 ≤ N := by exact_mod_cast (by omega : j + i + 1 ≤ N)
    nlinarith
  · unfold Sim.finished
    rw [hunit, hstop, htime, hN, hcast]
    nlinarith
  · rw [htime, hN, hcast]
    ring

/-- A run in which nothing happens. -/
def quiet : Physics ℝ Unit Unit := ⟨fun _ _ u => u, fun _ _ _ => 0, fun φ _ d => (φ, d)⟩

/-- A run to 10 seconds in calls of 5, with steps of 3 seconds: a checkpoint of step 1 is written
at 3 seconds, within the first interval. -/
example : ∃ r0 : RunSt ℝ Unit Unit, ∃ f ∈ r0.written quiet 1, f.step = 1 ∧ f.dt = 3 ∧ f.t = 3 ∧
    r0.sim.coupling = 5 ∧ r0.sim.stop = 2 * r0.sim.coupling ∧
    f.t = toSeconds ((0 : ℕ) * r0.sim.coupling + 3) r0.sim.unit := by
  have h2 : ⌈(5 : ℝ) / 3⌉₊ = 2 := by
    rw [Nat.ceil_eq_iff (by norm_num)]
    norm_num
  refine ⟨⟨⟨0, 0, 3, none, .seconds, 10, 5, some ⟨0.5, 2⟩, none⟩, 0, (), ()⟩,
    ⟨3, 3, 1, 0⟩, ?_, rfl, rfl, rfl, rfl, by norm_num, by norm_num [toSeconds]⟩
  unfold RunSt.written
  rw [List.mem_map]
  refine ⟨⟨3, 1, 0⟩, ?_, rfl⟩
  unfold RunSt.trace
  simp only [Sim.nextDt, Sim.budget, toSeconds, h2, solve]
  norm_num [quiet, checkpointDue]

/-! ### Fixed steps that divide the interval -/

theorem solve_grid (step : ℝ → U → U) (dt M : ℝ) (hdt : 0 < dt) (n m : ℕ) (s : Snap U)
    (hM : M - s.t = m * dt) (x : Snap U) (hx : x ∈ solve step dt M n s) :
    s.step ≤ x.step ∧ x.t = s.t + ((x.step - s.step : ℕ) : ℝ) * dt ∧
      x.u = (step dt)^[x.step - s.step] s.u := by
  induction n generalizing s m with
  | zero =>
    simp only [solve, List.mem_singleton] at hx
    subst hx
    simp
  | succ n ih =>
    simp only [solve] at hx
    by_cases h : M ≤ s.t
    · rw [if_pos h, List.mem_singleton] at hx
      subst hx
      simp
    · rw [if_neg h] at hx
      rcases List.mem_cons.1 hx with hx | hx
      · subst hx
        simp
      · cases m with
        | zero => simp only [Nat.cast_zero, zero_mul] at hM; linarith
        | succ m =>
          have hmin : min dt (M - s.t) = dt := by
            apply min_eq_left
            rw [hM]
            push_cast
            nlinarith [(Nat.cast_nonneg m : (0 : ℝ) ≤ m)]
          rw [hmin] at hx
          obtain ⟨a1, a2, a3⟩ := ih m ⟨s.t + dt, s.step + 1, step dt s.u⟩
            (by simp only; push_cast at hM; linarith) hx
          simp only at a1 a2 a3
          have e : x.step - s.step = (x.step - (s.step + 1)) + 1 := by omega
          refine ⟨by omega, ?_, ?_⟩
          · rw [a2, e]; push_cast; ring
          · rw [a3, e, Function.iterate_succ_apply]

theorem tsLoop_grid (dt M : ℝ) (hdt : 0 < dt) (n m : ℕ) (t : ℝ) (hM : M - t = m * dt) :
    (tsLoop dt M n t).2 = min n m := by
  induction n generalizing t m with
  | zero => simp [tsLoop]
  | succ n ih =>
    cases m with
    | zero =>
      simp only [Nat.cast_zero, zero_mul] at hM
      simp only [tsLoop]
      rw [if_pos (by linarith)]
      simp
    | succ m =>
      push_cast at hM
      have hlt : t < M := by nlinarith [(Nat.cast_nonneg m : (0 : ℝ) ≤ m)]
      have hmin : min dt (M - t) = dt := min_eq_left (by nlinarith [(Nat.cast_nonneg m : (0 : ℝ) ≤ m)])
      simp only [tsLoop]
      rw [if_neg (by linarith), hmin, ih m (t + dt) (by linarith)]
      omega

/-- A run with fixed steps that divide the interval, with constant data: everything the monitors see is
given by the number of the step. -/
theorem run_grid (P : Physics U D Φ) (r0 : RunSt U D Φ) (d : D)
    (hG : Memoryless P r0.frc r0.data fun _ => d) (hf : r0.sim.Fixed) (hdt : 0 < r0.sim.dt) (m : ℕ)
    (hI : toSeconds r0.sim.coupling r0.sim.unit = m * r0.sim.dt) (n : ℕ) :
    (∀ x ∈ (r0.run P n).trace P, r0.sim.step ≤ x.step ∧
      x.t = r0.sim.time + ((x.step - r0.sim.step : ℕ) : ℝ) * r0.sim.dt ∧
      x.u = (P.step d r0.sim.dt)^[x.step - r0.sim.step] r0.u) ∧
    (r0.run P n).sim.dt = r0.sim.dt := by
  obtain ⟨J, hJ0, hJ⟩ := hG
  have inv := runSt_inv P r0 J hJ0 (fun φ d t h => (hJ φ d t h).1)
  have hnext : ∀ n, (r0.run P n).sim.nextDt = (r0.run P n).sim.dt := by
    intro n
    have := (run_sim_frame P r0 n).2.2.2.1
    unfold Sim.Fixed at hf
    unfold Sim.nextDt
    rw [this, hf]
  have hd : ∀ n, (r0.run P n).sim.dt = r0.sim.dt := by
    intro n
    induction n with
    | zero => rfl
    | succ n ih =>
      have : (r0.run P (n + 1)).sim.dt = (r0.run P n).sim.nextDt := rfl
      rw [this, hnext, ih]
  refine ⟨?_, hd n⟩
  have step : ∀ n, (r0.sim.step ≤ (r0.run P n).sim.step ∧ (r0.run P n).sim.time = r0.sim.time +
      (((r0.run P n).sim.step - r0.sim.step : ℕ) : ℝ) * r0.sim.dt ∧
      (r0.run P n).u = (P.step d r0.sim.dt)^[(r0.run P n).sim.step - r0.sim.step] r0.u) →
      ∀ x ∈ (r0.run P n).trace P, r0.sim.step ≤ x.step ∧
      x.t = r0.sim.time + ((x.step - r0.sim.step : ℕ) : ℝ) * r0.sim.dt ∧
      x.u = (P.step d r0.sim.dt)^[x.step - r0.sim.step] r0.u := by
    rintro n ⟨g1, g2, g3⟩ x hx
    obtain ⟨f1, f2, f3, f4, f5⟩ := run_sim_frame P r0 n
    unfold RunSt.trace at hx
    rw [hnext, hd, RunSt.forced, (hJ _ _ _ (inv n)).2] at hx
    obtain ⟨a1, a2, a3⟩ := solve_grid (P.step d) r0.sim.dt _ hdt _ m _
      (by simp only; rw [f3, f1, hI]; ring) x hx
    simp only at a1 a2 a3
    have e : x.step - r0.sim.step = (x.step - (r0.run P n).sim.step) +
        ((r0.run P n).sim.step - r0.sim.step) := by omega
    refine ⟨by omega, ?_, ?_⟩
    · rw [a2, g2, e]; push_cast; ring
    · rw [a3, g3, e, Function.iterate_add_apply]
  have all : ∀ n, r0.sim.step ≤ (r0.run P n).sim.step ∧ (r0.run P n).sim.time = r0.sim.time +
      (((r0.run P n).sim.step - r0.sim.step : ℕ) : ℝ) * r0.sim.dt ∧
      (r0.run P n).u = (P.step d r0.sim.dt)^[(r0.run P n).sim.step - r0.sim.step] r0.u := by
    intro n
    induction n with
    | zero => simp [RunSt.run]
    | succ n ih =>
      obtain ⟨x, hx, e1, e2, e3⟩ := C97_clock P (r0.run P n)
      have := step n ih x hx
      simp only [RunSt.run]
      rw [e1, e2, e3]
      exact this
  exact step n (all n)

/-- C97 (any checkpoint, constant data): with a fixed step that divides the coupling interval and data
that do not change, a checkpoint taken anywhere will do: at equal step numbers the monitors of the
restarted run see the times and solutions of the uninterrupted one; and the restarted run, however
its calls lie, takes the remaining steps up to the limit `stop_n`. -/
theorem C97_any_step_partial (P : Physics U D Φ) (r0 : RunSt U D Φ) (d : D)
    (hG : Memoryless P r0.frc r0.data fun _ => d) (hf : r0.sim.Fixed) (hdt : 0 < r0.sim.dt) (m : ℕ)
    (hI : toSeconds r0.sim.coupling r0.sim.unit = m * r0.sim.dt) (c : ℤ) (i : ℕ) (f : CkSnap U)
    (hw : f ∈ (r0.run P i).written P c) :
    (∀ j k, ∀ x ∈ ((restart r0 f).run P j).trace P, ∀ y ∈ (r0.run P k).trace P,
      x.step = y.step → x = y) ∧
    ∀ S, r0.sim.maxSteps = some S → f.step ≤ S →
      ∀ j, ((restart r0 f).run P j).sim.step = min S (f.step + j * m) := by
  unfold RunSt.written at hw
  rw [List.mem_map] at hw
  obtain ⟨z, hz, rfl⟩ := hw
  have hz' := List.mem_of_mem_filter hz
  obtain ⟨gi, hdi⟩ := run_grid P r0 d hG hf hdt m hI i
  obtain ⟨b1, b2, b3⟩ := gi z hz'
  have hnext : (r0.run P i).sim.nextDt = r0.sim.dt := by
    have := (run_sim_frame P r0 i).2.2.2.1
    unfold Sim.Fixed at hf
    unfold Sim.nextDt
    rw [this, hf]
    exact hdi
  rw [hnext]
  have R := run_grid P (restart r0 ⟨z.t, r0.sim.dt, z.step, z.u⟩) d hG hf hdt m hI
  constructor
  · intro j k x hx y hy hxy
    obtain ⟨a1, a2, a3⟩ := (R j).1 x hx
    obtain ⟨c1, c2, c3⟩ := (run_grid P r0 d hG hf hdt m hI k).1 y hy
    simp only [restart] at a1 a2 a3
    have e : y.step - r0.sim.step = (x.step - z.step) + (z.step - r0.sim.step) := by omega
    have ht : x.t = y.t := by rw [a2, b2, c2, e]; push_cast; ring
    have hu : x.u = y.u := by rw [a3, b3, c3, e, Function.iterate_add_apply]
    cases x
    cases y
    simp only at ht hu hxy
    rw [ht, hu, hxy]
  · intro S hS hle j
    simp only at hle ⊢
    induction j with
    | zero => simp only [RunSt.run, restart]; omega
    | succ j ih =>
      obtain ⟨f1, f2, f3, f4, f5⟩ := run_sim_frame P (restart r0 ⟨z.t, r0.sim.dt, z.step, z.u⟩) j
      have hn : ((restart r0 ⟨z.t, r0.sim.dt, z.step, z.u⟩).run P j).sim.nextDt = r0.sim.dt := by
        unfold Sim.Fixed at hf
        unfold Sim.nextDt
        have hr : (restart r0 ⟨z.t, r0.sim.dt, z.step, z.u⟩).sim.adaptive = none := hf
        rw [f4, hr]
        exact (R j).2
      have e : ((restart r0 ⟨z.t, r0.sim.dt, z.step, z.u⟩).run P (j + 1)).sim.step =
          ((restart r0 ⟨z.t, r0.sim.dt, z.step, z.u⟩).run P j).sim.step +
          (tsLoop r0.sim.dt (((restart r0 ⟨z.t, r0.sim.dt, z.step, z.u⟩).run P j).sim.time +
            toSeconds r0.sim.coupling r0.sim.unit)
            (S - ((restart r0 ⟨z.t, r0.sim.dt, z.step, z.u⟩).run P j).sim.step)
            ((restart r0 ⟨z.t, r0.sim.dt, z.step, z.u⟩).run P j).sim.time).2 := by
        simp only [RunSt.run, RunSt.advance, Sim.advance, hn, f3, f1, Sim.budget, f5]
        simp only [restart, hS]
      rw [e, tsLoop_grid r0.sim.dt _ hdt _ m _ (by rw [hI]; ring), ih]
      have : (j + 1) * m = j * m + m := by ring
      omega

/-- The tank with constant inflow, steps of a second, calls of ten: the data are constant and there is a
checkpoint within the first interval. -/
example : ∃ r0 : RunSt ℝ ℝ Unit, ∃ P : Physics ℝ ℝ Unit, Memoryless P r0.frc r0.data (fun _ => 2) ∧
    r0.sim.Fixed ∧ toSeconds r0.sim.coupling r0.sim.unit = (2 : ℕ) * r0.sim.dt ∧
    ∃ f ∈ r0.written P 1, f.t = 1 ∧ f.step = 1 ∧ f.u = 2 := by
  refine ⟨⟨⟨0, 0, 1, some 6, .seconds, 6, 2, none, none⟩, 0, 2, ()⟩,
    ⟨fun d dt u => u + dt * d, fun _ _ _ => 0, fun φ _ d => (φ, d)⟩,
    ⟨fun _ d => d = 2, rfl, fun _ _ _ h => ⟨h, h⟩⟩, rfl, by norm_num [toSeconds], ⟨1, 1, 1, 2⟩, ?_,
    rfl, rfl, rfl⟩
  unfold RunSt.written
  rw [List.mem_map]
  refine ⟨⟨1, 1, 2⟩, ?_, rfl⟩
  unfold RunSt.trace RunSt.forced
  simp only [Sim.nextDt, Sim.budget, toSeconds, solve]
  norm_num [checkpointDue]

/-! ## Forcing -/

/-- A tank without rain for ten seconds, then with one unit per second: a run of twenty seconds with
steps of five and calls of ten. -/
def tankRun : RunSt ℝ ℝ (Homog × ℝ) :=
  ⟨⟨0, 0, 5, some 4, .seconds, 20, 10, none, none⟩, 0, 0, (openHomog [0, 0, 10, 1] false, 0)⟩

theorem tank_rate (φ : Homog × ℝ) (d : ℝ) (h1 : φ.1.d = fun i => [0, 0, 10, 1].getD i 0)
    (h2 : φ.1.n = 2) (h3 : φ.1.interp = false) (h4 : Held φ.1 φ.2) (t : ℝ) (h0 : 0 ≤ t) :
    (rainForce φ t d).2 = (if t < 10 then 0 else 1) ∧
    (rainForce φ t d).1.1.d = (fun i => [0, 0, 10, 1].getD i 0) ∧ (rainForce φ t d).1.1.n = 2 ∧
    (rainForce φ t d).1.1.interp = false ∧ Held (rainForce φ t d).1.1 (rainForce φ t d).1.2 := by
  have hg : ∃ k, getCurrentData φ.1.d φ.1.n t φ.1.interp = some (k, if t < 10 then 0 else 1) := by
    rw [h1, h2, h3]
    unfold getCurrentData bracketIdx
    by_cases h : t < 10
    · exact ⟨0, by norm_num [h, h0, List.range_succ, List.find?]⟩
    · exact ⟨1, by norm_num [h, h0, List.range_succ, List.find?]⟩
  obtain ⟨k, hk⟩ := hg
  obtain ⟨s', e1, e2, e3, e4, e5⟩ := setHomog_step φ.1 φ.2 h4 t _ _ hk
  have e : rainForce φ t d = ((s', if t < 10 then 0 else 1), if t < 10 then 0 else 1) := by
    unfold rainForce; rw [e1]
  rw [e]
  exact ⟨rfl, e3.trans h1, e4.trans h2, e5.trans h3, e2⟩

/-- A tank that is in step with `tankRun`. -/
def TankOk (r : RunSt ℝ ℝ (Homog × ℝ)) (t : ℝ) (k : ℕ) (u : ℝ) : Prop :=
  r.sim = ⟨t, k, 5, some 4, .seconds, 20, 10, none, none⟩ ∧ r.u = u ∧
  (r.frc.1.d = fun i => [0, 0, 10, 1].getD i 0) ∧ r.frc.1.n = 2 ∧ r.frc.1.interp = false ∧
  Held r.frc.1 r.frc.2

theorem tank_advance (r : RunSt ℝ ℝ (Homog × ℝ)) (t : ℝ) (k : ℕ) (u : ℝ) (h : TankOk r t k u)
    (ht : 0 ≤ t) (hk : k = 0 ∨ k = 1 ∨ k = 2 ∨ k = 3) :
    TankOk (r.advance tank) (t + if k = 3 then 5 else 10) (if k = 3 then 4 else k + 2)
      (u + (if k = 3 then 5 else 10) * if t < 10 then 0 else 1) := by
  obtain ⟨h1, h2, h3, h4, h5, h6⟩ := h
  obtain ⟨q1, q2, q3, q4, q5⟩ := tank_rate r.frc r.data h3 h4 h5 h6 t ht
  have ef : (r.forced tank) = rainForce r.frc t r.data := by
    unfold RunSt.forced; rw [h1]; rfl
  have m1 : t + 10 - t = 10 := by ring
  have m2 : t + 10 - (t + 5) = 5 := by ring
  have m3 : ¬ t + 10 ≤ t := by linarith
  have m4 : ¬ t + 10 ≤ t + 5 := by linarith
  have m5 : t + 5 + 5 = t + 10 := by ring
  have m6 : min (5 : ℝ) 10 = 5 := by norm_num
  refine ⟨?_, ?_, ?_, ?_, ?_, ?_⟩
  · simp only [RunSt.advance, h1, Sim.advance, Sim.nextDt, Sim.budget, toSeconds]
    rcases hk with rfl | rfl | rfl | rfl <;>
      simp [tsLoop, m1, m2, m3, m4, m5, m6]
  · simp only [RunSt.advance, RunSt.trace, h1, h2, Sim.nextDt, Sim.budget, toSeconds, ef, q1]
    generalize (if t < 10 then (0 : ℝ) else 1) = q
    rcases hk with rfl | rfl | rfl | rfl <;>
      simp [solve, tank, m1, m2, m3, m4, m5, m6] <;> ring
  · simp only [RunSt.advance, ef]; exact q2
  · simp only [RunSt.advance, ef]; exact q3
  · simp only [RunSt.advance, ef]; exact q4
  · simp only [RunSt.advance, ef]; exact q5

/-- C97 fails for checkpoints within a coupling interval if the forcing changes with time: the forcing
is applied at the start of each call of `RDyAdvance`, and the calls of the restarted run start
elsewhere. A tank that receives 10 units of rain in twenty seconds receives 5 if the run is restarted
from the checkpoint of second 5; both runs end at the same time with the same number of steps. -/
theorem C97_forcing_shift_violated :
    ∃ f ∈ tankRun.written tank 1, f.t = 5 ∧ f.step = 1 ∧
      (tankRun.run tank 2).sim.time = 20 ∧ ((restart tankRun f).run tank 2).sim.time = 20 ∧
      (tankRun.run tank 2).sim.step = 4 ∧ ((restart tankRun f).run tank 2).sim.step = 4 ∧
      (tankRun.run tank 2).u = 10 ∧ ((restart tankRun f).run tank 2).u = 5 := by
  have hH : Held (openHomog [0, 0, 10, 1] false) 0 := Or.inr (Or.inl (by simp [openHomog]))
  have hn : (openHomog [0, 0, 10, 1] false).n = 2 := by simp [openHomog]
  have a0 : TankOk tankRun 0 0 0 := ⟨rfl, rfl, rfl, hn, rfl, hH⟩
  have a1 := tank_advance _ _ _ _ a0 le_rfl (by norm_num)
  have a2 := tank_advance _ _ _ _ a1 (by norm_num) (by norm_num)
  have b0 : TankOk (restart tankRun ⟨5, 5, 1, 0⟩) 5 1 0 := ⟨rfl, rfl, rfl, hn, rfl, hH⟩
  have b1 := tank_advance _ _ _ _ b0 (by norm_num) (by norm_num)
  have b2 := tank_advance _ _ _ _ b1 (by norm_num) (by norm_num)
  refine ⟨⟨5, 5, 1, 0⟩, ?_, rfl, rfl, ?_⟩
  · unfold RunSt.written
    rw [List.mem_map]
    refine ⟨⟨5, 1, 0⟩, ?_, rfl⟩
    have q := (tank_rate tankRun.frc tankRun.data rfl hn rfl hH 0 le_rfl).1
    have e : (tankRun.forced tank).2 = 0 := by
      have e1 : tankRun.forced tank = rainForce tankRun.frc 0 tankRun.data := rfl
      rw [e1, q]; norm_num
    unfold RunSt.trace
    rw [e]
    simp only [tankRun, Sim.nextDt, Sim.budget, toSeconds, solve]
    norm_num [checkpointDue, tank]
  · simp only [RunSt.run]
    rw [a2.1, b2.1, a2.2.1, b2.2.1]
    norm_num

/-- C97 fails for hourly files (raster or unstructured data): the forcing object of the restarted run
starts with the file of the start date and opens at most one further file in each call. With calls of
an hour, a run restarted after `k` hours (`k ≥ 1`) uses in its `j`th call the file of hour `j + 1`, and
never that of hour `k + j`, which the uninterrupted run uses: it stays `k - 1` hours behind. -/
theorem C97_hourly_violated (k n : ℕ) (hk : 1 ≤ k) :
    fileHistory 1 ((List.range n).map fun j : ℕ => ((k + j : ℕ) : ℝ) * 3600) =
      (List.range n).map (fun j => j + 1) ∧
    fileHistory 1 ((List.range (k + n)).map fun j : ℕ => (j : ℝ) * 3600) = List.range (k + n) := by
  constructor
  · have key : ∀ n a b : ℕ, b ≤ a → 1 ≤ b →
        fileHistory b ((List.range n).map fun j : ℕ => ((a + j : ℕ) : ℝ) * 3600) =
          (List.range n).map (fun j => j + b) := by
      intro n
      induction n with
      | zero => intros; rfl
      | succ n ih =>
        intro a b hab hb
        rw [List.range_succ_eq_map, List.map_cons, List.map_map, List.map_cons, List.map_map]
        have hnf : nextFile b (((a + 0 : ℕ) : ℝ) * 3600) = b + 1 := by
          unfold nextFile
          rw [if_pos]
          have : (b : ℝ) ≤ a := by exact_mod_cast hab
          simp only [Nat.add_zero]
          linarith
        simp only [fileHistory, hnf]
        congr 1
        · omega
        · have := ih (a + 1) (b + 1) (by omega) (by omega)
          have e1 : ((fun j : ℕ => ((a + j : ℕ) : ℝ) * 3600) ∘ Nat.succ) =
              fun j : ℕ => ((a + 1 + j : ℕ) : ℝ) * 3600 := by
            funext j
            simp only [Function.comp_apply]
            congr 2
            omega
          rw [e1, this]
          apply List.map_congr_left
          intro j _
          simp only [Function.comp_apply]
          omega
    exact key n k 1 hk le_rfl
  · have h : ∀ N : ℕ, List.IsChain (fun a b : ℝ => a ≤ b ∧ b ≤ a + 3600)
        (0 :: (List.range N).map fun j : ℕ => (j : ℝ) * 3600) := by
      intro N
      have key : ∀ (n a : ℕ) (x : ℝ), x ≤ (a : ℝ) * 3600 → (a : ℝ) * 3600 ≤ x + 3600 →
          List.IsChain (fun a b : ℝ => a ≤ b ∧ b ≤ a + 3600)
          (x :: (List.range' a n).map fun j : ℕ => (j : ℝ) * 3600) := by
        intro n
        induction n with
        | zero => intros; simp
        | succ n ih =>
          intro a x h1 h2
          rw [List.range'_succ, List.map_cons, List.isChain_cons_cons]
          refine ⟨⟨h1, h2⟩, ih (a + 1) _ ?_ ?_⟩ <;> push_cast <;> linarith
      rw [List.range_eq_range']
      exact key N 0 0 (by simp) (by simp)
    rw [C53_covering_partial _ (h _), List.map_map]
    conv_rhs => rw [← List.map_id (List.range (k + n))]
    apply List.map_congr_left
    intro j _
    simp only [Function.comp_apply, id]
    have hb := hourOf_bounds ((j : ℝ) * 3600) (by positivity)
    have h1 : (hourOf ((j : ℝ) * 3600) : ℝ) < j + 1 := by linarith [hb.1]
    have h2 : (j : ℝ) < hourOf ((j : ℝ) * 3600) + 1 := by linarith [hb.2]
    have h1' : hourOf ((j : ℝ) * 3600) < j + 1 := by exact_mod_cast h1
    have h2' : j < hourOf ((j : ℝ) * 3600) + 1 := by exact_mod_cast h2
    omega

/-- Restarted after five hours: the files of hours 1, 2, 3 in place of those of hours 5, 6, 7. -/
example : fileHistory 1 ((List.range 3).map fun j : ℕ => ((5 + j : ℕ) : ℝ) * 3600) = [1, 2, 3] := by
  rw [(C97_hourly_violated 5 3 (by norm_num)).1]; rfl

/-! ## Time averages in the output -/

/-- C97 fails for time averages: the sums accumulated since the last output are not part of a
checkpoint. With output every four steps and the values 0, 10, 20, 30, 40, the output of step 4 is the
mean 25 of steps 1 to 4; after a restart from step 2 it is 30, the mean of steps 2 to 4. -/
theorem C97_mean_violated :
    (∃ s, outRun ⟨none, 4, 0⟩ outInit [⟨0, 0, 1, 0⟩, ⟨1, 1, 1, 10⟩, ⟨2, 2, 1, 20⟩, ⟨3, 3, 1, 30⟩,
      ⟨4, 4, 1, 40⟩] = some s ∧ (4, 25) ∈ s.out) ∧
    ∃ s, outRun ⟨none, 4, 0⟩ outInit [⟨2, 2, 1, 20⟩, ⟨3, 3, 1, 30⟩, ⟨4, 4, 1, 40⟩] = some s ∧
      (4, 30) ∈ s.out := by
  constructor
  · refine ⟨⟨0, 0, 4, 4, [(0, 0), (4, 25)]⟩, ?_, ?_⟩
    · norm_num [outRun, outMonitor, outDue_steps, outAccumulate, outInit]
    · simp
  · refine ⟨⟨0, 0, 4, 4, [(4, 30)]⟩, ?_, ?_⟩
    · norm_num [outRun, outMonitor, outDue_steps, outAccumulate, outInit]
    · simp

end RDy
