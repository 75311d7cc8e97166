import Mathlib.Data.Real.Basic
import Mathlib.Algebra.Order.Floor.Defs
import Mathlib.Algebra.Order.Archimedean.Real.Basic
import Mathlib.Data.List.Basic

/-!
Model of the monitors called by the time integrator: boundary-flux and observation time series
(`/repo/src/time_series.c`) and time-averaged output (`/repo/src/xdmf_output.c`).

Contract assumed of `TSSolve`: it calls the monitors before each step and once more after the last
one, so a call of `RDyAdvance` (`/repo/src/rdyadvance.c:261-383`) that takes steps `s+1 … s+k` calls
them with `s, s+1, …, s+k`; step `s` was already reported by the previous call.
-/

namespace RDy

/-! ### Accumulation and output of boundary fluxes -/

/-- What the boundary-flux accounting sees, in order of time: an evaluation of the right-hand side
with the integrator's step `dt` that computes the flux `f` through the edge under consideration
(`/repo/src/rdysetup.c:1120-1135`), or a call of the monitor for step `n` while `rdy->dt = dt`
(`/repo/src/time_series.c:530`). -/
inductive BfEvent
  | rhs (dt f : ℝ)
  | monitor (n : ℕ) (dt : ℝ)

/-- State of the accounting for one component on one edge: `acc` is the edge's entry in
`boundary_fluxes_accum` (PETSc) or `flux_accumulated` (CEED), `last` its entry in the sub-operator's
"flux" vector, `accT` and `lastStep` are `boundary_fluxes.accumulated_time` and `.last_step`, and
`out` collects the lines written: step and value. `/repo/include/private/rdycoreimpl.h:26-73`. -/
structure BfState where
  acc : ℝ
  last : ℝ
  accT : ℝ
  lastStep : ℤ
  out : List (ℕ × ℝ)

/-- `/repo/src/time_series.c:68-69` and the zeroed vectors of `/repo/src/operator.c:128` (PETSc),
`/repo/src/operator_fluxes_ceed.c:502-504` (CEED). -/
def bfInit : BfState := ⟨0, 0, 0, -1, []⟩

/-- `/repo/src/swe/swe_petsc.c:623`: with PETSc each evaluation adds `dt·f` to the accumulated
flux. With CEED the evaluation adds its flux to the sub-operator's "flux" vector, by `CeedOperatorApplyAdd`
(`/repo/src/operator.c:584`; `CeedOp.lean`, C110), which is read by `/repo/src/time_series.c:481-493`. (The row of the edge in that
vector is the edge's own, as on boundaries all of whose edges are owned.) -/
def bfRhs (ceed : Bool) (s : BfState) (dt f : ℝ) : BfState :=
  if ceed then { s with last := s.last + f } else { s with acc := s.acc + dt * f }

/-- `/repo/src/time_series.c:464-504` `AccumulateBoundaryFluxes`. -/
def bfAccumulate (ceed : Bool) (s : BfState) (dt : ℝ) : BfState :=
  { s with accT := s.accT + dt
           acc := if ceed then s.acc + dt * s.last else s.acc }

/-- `/repo/src/time_series.c:286`, `:311-313`, `:326`: the value written for one component of an
edge of length `len`. -/
noncomputable def bfValue (len : ℝ) (s : BfState) : ℝ :=
  len * s.acc / (if s.accT = 0 then 1 else s.accT)

/-- `/repo/src/time_series.c:545-563`: the boundary-flux part of `WriteTimeSeries`; `none` is the
undefined `step % 0` (`:549`). -/
noncomputable def bfMonitor (ceed : Bool) (interval : ℕ) (len : ℝ) (s : BfState) (n : ℕ) (dt : ℝ) :
    Option BfState :=
  let s' := bfAccumulate ceed s dt
  if interval = 0 then none
  else if n % interval = 0 ∧ s.lastStep < n then
    some { s' with acc := 0, accT := 0, lastStep := n, out := s'.out ++ [(n, bfValue len s')] }
  else some s'

/-- The accounting over a sequence of events. `/repo/src/time_series.c:464-563`. -/
noncomputable def bfRun (ceed : Bool) (interval : ℕ) (len : ℝ) :
    BfState → List BfEvent → Option BfState
  | s, [] => some s
  | s, .rhs dt f :: es => bfRun ceed interval len (bfRhs ceed s dt f) es
  | s, .monitor n dt :: es => (bfMonitor ceed interval len s n dt).bind
      fun s' => bfRun ceed interval len s' es

/-- `/repo/src/time_series.c:254-267` `InitTimeSeries`: whether the monitor is installed, given the
two intervals. -/
def tsMonitorInstalled (fluxInterval obsInterval : ℕ) : Bool :=
  decide (0 < fluxInterval) || decide (0 < obsInterval)

/-- The arrays that the boundary-flux monitor needs, after `InitTimeSeries`
(`/repo/src/time_series.c:254-267`): `InitBoundaryFluxes` fails before allocating them if the number
of components is not 3 (`:76-78`), and its error code is dropped (`:258`). The result is whether they
exist. -/
def bfArraysExist (ndof fluxInterval : ℕ) : Bool := decide (0 < fluxInterval ∧ ndof = 3)

/-- `/repo/src/time_series.c:301`: `num_local_edges[rdy->rank]` through a null pointer unless
the arrays exist; `none` is undefined behaviour. -/
def bfWriteDefined (ndof fluxInterval : ℕ) : Option Unit :=
  if bfArraysExist ndof fluxInterval then some () else none

/-! ### Which line belongs to which edge -/

/-- A boundary as the time series sees it: is its condition auto-generated, the numeric type of the
condition, and its edges.
`/repo/include/private/rdyboundaryimpl.h:9-16`; `/repo/include/private/rdyconditionimpl.h:12-24`. -/
structure TsBoundary where
  auto : Bool
  bcType : ℤ
  edges : List ℕ

/-- An edge: is its (first) cell owned by this process, centroid, length and unit normal.
`/repo/include/private/rdymeshimpl.h:106-140`. -/
structure TsEdge where
  owned : Bool
  cx : ℝ
  cy : ℝ
  len : ℝ
  nx : ℝ
  ny : ℝ

/-- C's conversion of a floating-point number to an integer type: truncation towards zero
(overflow not modelled). `/repo/src/time_series.c:315-337`. -/
noncomputable def ctrunc (x : ℝ) : ℤ := if 0 ≤ x then ⌊x⌋ else ⌈x⌉

/-- The edges of a boundary that are recorded by this process
(`/repo/src/time_series.c:17-29`, `:85-92`, `:275-292`, `:318-336`: the same test in four loops). -/
def TsBoundary.recorded (E : ℕ → TsEdge) (b : TsBoundary) : List ℕ :=
  if b.auto then [] else b.edges.filter fun e => (E e).owned

/-- `/repo/src/time_series.c:15-31`: the local metadata, three entries per recorded edge. The array
is of type `PetscInt`. -/
noncomputable def localMd (E : ℕ → TsEdge) (bs : List TsBoundary) : List ℤ :=
  bs.flatMap fun b => (b.recorded E).flatMap fun e => [ctrunc (E e).cx, ctrunc (E e).cy, b.bcType]

/-- `/repo/src/time_series.c:82-94`: the offsets of the boundaries in the array of fluxes. -/
def bfOffsets (E : ℕ → TsEdge) : ℕ → List TsBoundary → List ℕ
  | n, [] => [n]
  | n, b :: bs => n :: bfOffsets E (n + (b.recorded E).length) bs

/-- The edge loop of `RecordBoundaryFluxes` (`/repo/src/time_series.c:278-292`): `e` is the position
in the boundary, `n` the position in the array of fluxes; `val e` is the accumulated flux of the
boundary's `e`th edge. -/
noncomputable def recordLoop (E : ℕ → TsEdge) (val : ℕ → ℝ) :
    ℕ → ℕ → List ℕ → (ℕ → ℝ) → (ℕ → ℝ)
  | _, _, [], F => F
  | e, n, id :: ids, F =>
    if (E id).owned then
      recordLoop E val (e + 1) (n + 1) ids (Function.update F n ((E id).len * val e))
    else recordLoop E val (e + 1) n ids F

/-- `/repo/src/time_series.c:270-296` `RecordBoundaryFluxes`. -/
noncomputable def recordBoundary (E : ℕ → TsEdge) (b : TsBoundary) (off : ℕ) (val : ℕ → ℝ)
    (F : ℕ → ℝ) : ℕ → ℝ :=
  if b.auto then F else recordLoop E val 0 off b.edges F

/-- `/repo/src/time_series.c:550-557`: all boundaries; `val b e` is the accumulated flux of edge `e`
of boundary `b`. -/
noncomputable def recordAll (E : ℕ → TsEdge) (val : ℕ → ℕ → ℝ) :
    ℕ → List TsBoundary → List ℕ → (ℕ → ℝ) → (ℕ → ℝ)
  | b, bd :: bs, off :: offs, F =>
    recordAll E val (b + 1) bs offs (recordBoundary E bd off (val b) F)
  | _, _, _, F => F

/-- `/repo/src/time_series.c:315-337`: the local data written (here water mass and normal of each
recorded edge): the `n`th recorded edge gets the `n`th flux. -/
noncomputable def localData (E : ℕ → TsEdge) (F : ℕ → ℝ) (T : ℝ) (bs : List TsBoundary) :
    List (ℝ × ℝ × ℝ) :=
  ((bs.flatMap fun b => b.recorded E).zipIdx).map fun (e, n) => (F n / T, (E e).nx, (E e).ny)

/-- A line of the boundary-flux file (water mass only): position, condition type, flux, normal.
`/repo/src/time_series.c:369-380`. -/
structure BfLine where
  x : ℤ
  y : ℤ
  bc : ℤ
  flux : ℝ
  nx : ℝ
  ny : ℝ

/-- `/repo/src/time_series.c:369-380`: the lines written from the gathered metadata and data; `none`
if an entry is missing (an access past the end of the gathered metadata). -/
noncomputable def bfLines : List ℤ → List (ℝ × ℝ × ℝ) → Option (List BfLine)
  | x :: y :: t :: md, (f, nx, ny) :: ds =>
    (bfLines md ds).map fun r => ⟨x, y, t, f, nx, ny⟩ :: r
  | _, [] => some []
  | _, _ :: _ => none

/-- One process: its edges, its boundaries and the fluxes accumulated on them.
`/repo/include/private/rdycoreimpl.h:26-73`. -/
structure TsProc where
  E : ℕ → TsEdge
  bs : List TsBoundary
  val : ℕ → ℕ → ℝ

/-- What the root process writes: metadata gathered once (`/repo/src/time_series.c:34-53`), data
gathered at each output (`:341-357`), both in the order of the ranks (`MPI_Gatherv` with
consecutive displacements). `F₀` is the previous content of the processes' flux arrays. -/
noncomputable def bfFile (ps : List TsProc) (F₀ : ℕ → ℝ) (T : ℝ) : Option (List BfLine) :=
  bfLines (ps.flatMap fun p => localMd p.E p.bs)
    (ps.flatMap fun p =>
      localData p.E (recordAll p.E p.val 0 p.bs (bfOffsets p.E 0 p.bs) F₀) T p.bs)

/-! ### Observations -/

/-- State of the observations: `observations.last_step` and the steps written.
`/repo/include/private/rdycoreimpl.h:32-73`. -/
structure ObsState where
  lastStep : ℤ
  out : List ℕ

/-- `/repo/src/time_series.c:168` -/
def obsInit : ObsState := ⟨-1, []⟩

/-- `/repo/src/time_series.c:536-543`: the observation part of `WriteTimeSeries`. (Unlike the
boundary-flux part it does not update `last_step`.) -/
def obsMonitor (interval : ℕ) (s : ObsState) (n : ℕ) : ObsState :=
  if 0 < interval ∧ n % interval = 0 ∧ s.lastStep < n then { s with out := s.out ++ [n] } else s

/-- The step numbers passed to the monitors by one `RDyAdvance` that starts at step `s` and takes
`k` steps (see the header). `/repo/src/rdyadvance.c:261-383`. -/
def advanceCalls (s k : ℕ) : List ℕ := (List.range (k + 1)).map (s + ·)

/-- The step numbers passed to the monitors by a sequence of `RDyAdvance` calls taking `ks` steps.
`/repo/src/rdyadvance.c:261-383`. -/
def runSeriesCalls : ℕ → List ℕ → List ℕ
  | _, [] => []
  | s, k :: ks => advanceCalls s k ++ runSeriesCalls (s + k) ks

/-- `/repo/src/time_series.c:119-163`, `:386-391`, `:417-431`: the values written for the
observation sites: the entries of the global vector (ordered by PETSc's global numbering) at the
positions given in the configuration. -/
def obsValues (uGlobal : ℕ → ℝ) (sites : List ℕ) : List ℝ := sites.map uGlobal

/-! ### Time-averaged output -/

/-- The output settings used by `WriteXDMFOutput`: `time_interval` in seconds (`none` if 0), the
step interval, and `10 · DBL_EPSILON`. `/repo/include/private/rdyconfigimpl.h:218-230`. -/
structure SeriesCfg where
  timeInterval : Option ℝ
  stepInterval : ℕ
  eps : ℝ

/-- `fmod(t, d)` for non-negative `t` and positive `d`. `/repo/src/xdmf_output.c:463`. -/
noncomputable def fmodR (t d : ℝ) : ℝ := t - d * ⌊t / d⌋

/-- `/repo/src/xdmf_output.c:459-471`: is output due at this step and time? -/
noncomputable def outDue (c : SeriesCfg) (n : ℕ) (t : ℝ) : Prop :=
  (∃ d, c.timeInterval = some d ∧ (|fmodR t d| < c.eps ∨ |fmodR t d - d| < c.eps)) ∨
    (0 < c.stepInterval ∧ n % c.stepInterval = 0)

/-- State of an output variable (one entry): `petsc_accum`, `accumulated_time`
(`/repo/include/private/rdyoutputimpl.h:17-30`), `rdy->last_accumulated_step`,
`output.prev_output_time`, and the means written: step and value. -/
structure OutState where
  accum : ℝ
  accTime : ℝ
  lastAcc : ℤ
  prevTime : ℝ
  out : List (ℕ × ℝ)

/-- `/repo/src/rdydm.c:271`, `/repo/src/yaml_input.c:1091`. -/
def outInit : OutState := ⟨0, 0, -1, -1, []⟩

/-- A call of the output monitor: step number, time, `rdy->dt`, and the entry of the variable's
instantaneous vector. `/repo/src/xdmf_output.c:436-446`. -/
structure OutCall where
  n : ℕ
  t : ℝ
  dt : ℝ
  x : ℝ

/-- `/repo/src/xdmf_output.c:197-206` `AccumulateOutputVar` as called in `:452-457`: once for each
step number. -/
def outAccumulate (s : OutState) (e : OutCall) : OutState :=
  if s.lastAcc ≠ e.n then
    { s with accum := s.accum + e.dt * e.x, accTime := s.accTime + e.dt, lastAcc := e.n }
  else s

open Classical in
/-- `/repo/src/xdmf_output.c:436-504` `WriteXDMFOutput` for a variable whose mean is requested;
`none` is the error of `ComputeMean` (`:213-214`). `:221-239` give the mean, `ResetOutputVar`
(`:232-241`) the new state. -/
noncomputable def outMonitor (c : SeriesCfg) (s : OutState) (e : OutCall) : Option OutState :=
  if e.t = s.prevTime then some s
  else if outDue c e.n e.t then
    if 0 < (outAccumulate s e).accTime then
      some { outAccumulate s e with
        accum := 0, accTime := 0, prevTime := e.t
        out := s.out ++ [(e.n, (outAccumulate s e).accum * (1 / (outAccumulate s e).accTime))] }
    else none
  else some (outAccumulate s e)

/-- A sequence of calls of the output monitor. `/repo/src/xdmf_output.c:436-504`. -/
noncomputable def outRun (c : SeriesCfg) : OutState → List OutCall → Option OutState
  | s, [] => some s
  | s, e :: es => (outMonitor c s e).bind fun s' => outRun c s' es

end RDy
