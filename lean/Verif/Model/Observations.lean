import Verif.Model.Batched
import Verif.Model.ConfigText

/-!
Model of the file of observations on several processes (`/repo/src/time_series.c:119-250`, `:395-448`, `:528-544`): the vectors and scatters
set up at the beginning, the coordinates of the sites, and what every call of the monitor writes. (`TimeSeries.lean` has the steps that are written only.)

A global vector is the list of the parts of the processes, in the order of their ranks. PETSc's contracts: `VecScatter` copies the entries of one
index set to those of another, and an index outside a vector is not accepted; the block size of a global vector is the number of components
of its field; `dm_1dof` has one entry for each owned cell. `none` is an error or an undefined access. Printing of numbers is left out.
-/

namespace RDy

/-- A local cell, as far as observations read it: `is_owned`, `centroids`. `/repo/include/private/rdymeshimpl.h:26-90`. -/
structure ObsCell where
  owned : Bool
  centroid : ℕ → ℝ

/-- Entry `i` of a global vector. `/repo/src/time_series.c:158,399-402`. -/
noncomputable def vecEntry {α : Type} : List (Arr α) → ℕ → Option α
  | [], _ => none
  | a :: l, i => if i < a.len then some (a.val i) else vecEntry l (i - a.len)

/-- The indices of `ISCreateBlock(comm, bs, n, idx)`. `/repo/src/time_series.c:138,144`. -/
noncomputable def blockIndices (bs : ℕ) (idx : List ℕ) : List ℕ := idx.flatMap fun i => (List.range bs).map fun c => i * bs + c

/-- `VecScatterBegin` and `VecScatterEnd` with `INSERT_VALUES` for the pairs of indices `l`. `/repo/src/time_series.c:224-225,399-402`. -/
noncomputable def scatterV (g : List (Arr ℝ)) (l : List (ℕ × ℕ)) (v : Arr ℝ) : Option (Arr ℝ) :=
  l.foldlM (fun v p => (vecEntry g p.1).bind fun x => v.put p.2 x) v

/-- `/repo/src/time_series.c:119-163` `CreateRank0VecAndVecScatter` on the first process, which alone has entries: the sequential vector, and
the scatter; `numComp` is the block size of the global vector. -/
noncomputable def createScatter (numComp : ℕ) (sites : List ℕ) : Arr ℝ × List (ℕ × ℕ) :=
  (Arr.calloc (numComp * sites.length) 0, (blockIndices numComp sites).zip (blockIndices numComp (List.range sites.length)))

/-- `/repo/src/time_series.c:209-220`: coordinate `k` of local cell `i`, if the cell is owned, goes to the next place. -/
noncomputable def coordStep (k : ℕ) (cells : List ObsCell) (s : Arr ℝ × ℕ) (i : ℕ) : Option (Arr ℝ × ℕ) :=
  (cells[i]?).bind fun c => if c.owned then (s.1.put s.2 (c.centroid k)).map fun a => (a, s.2 + 1) else some s

/-- `/repo/src/time_series.c:203-222`: one coordinate of all owned cells of a process, in its part of `coord_global`. -/
noncomputable def coordPart (k : ℕ) (cells : List ObsCell) (a : Arr ℝ) : Option (Arr ℝ) :=
  (loopM (coordStep k cells) cells.length (a, 0)).map Prod.fst

/-- `/repo/src/time_series.c:201-241` for coordinate `k`: all processes, the scatter to the first process, and the copy to `sites.x`, `sites.y` or
`sites.z`. The part of `coord_global` of a process has an entry for each of its owned cells (`/repo/src/rdydata.c:556-560`); its earlier contents (zeros, or the
coordinate before) are overwritten and taken to be zero. -/
noncomputable def siteCoords (k : ℕ) (procs : List (List ObsCell)) (sites : List ℕ) : Option (Arr ℝ) :=
  (procs.mapM fun cells => coordPart k cells (Arr.calloc (cells.countP fun c => c.owned) 0)).bind fun g =>
  (scatterV g (createScatter 1 sites).2 (createScatter 1 sites).1).bind fun v =>
    loopM (fun (x : Arr ℝ) i => (v.get i).bind fun y => x.put i y) sites.length (Arr.calloc sites.length 0)

/-- A line of the file: the header, or time, coordinates, name of the component and value. `/repo/src/time_series.c:414,440`. -/
inductive ObsLine
  | header
  | row (time x y z : ℝ) (name : Str) (value : ℝ)

/-- `rdy->time_series_data.observations`: last step, accumulation vector (by process), vector and coordinates of the sites, and the scatter.
`/repo/include/private/rdycoreimpl.h:46-70`. -/
structure ObsData where
  lastStep : ℤ
  numComp : ℕ
  accum : List (Arr ℝ)
  sitesU : Arr ℝ
  scatter : List (ℕ × ℕ)
  x : Arr ℝ
  y : Arr ℝ
  z : Arr ℝ

/-- `/repo/src/time_series.c:165-250` `InitObservations`; `u` is `u_global`. That the numbers of sites are accepted by `VecScatterCreate` is
required here (`:158`). -/
noncomputable def initObs (numComp : ℕ) (procs : List (List ObsCell)) (u : List (Arr ℝ)) (sites : List ℕ) : Option ObsData :=
  if ∀ p ∈ (createScatter numComp sites).2, (vecEntry u p.1).isSome then
    (siteCoords 0 procs sites).bind fun x => (siteCoords 1 procs sites).bind fun y => (siteCoords 2 procs sites).map fun z =>
      { lastStep := -1
        numComp := numComp
        accum := u.map fun a => Arr.calloc a.len 0
        sitesU := (createScatter numComp sites).1
        scatter := (createScatter numComp sites).2
        x := x
        y := y
        z := z }
  else none

/-- `/repo/src/time_series.c:438-441`: the line of component `c` of site `i`. -/
noncomputable def obsRow (d : ObsData) (names : List Str) (v : Arr ℝ) (t : ℝ) (i c : ℕ) : Option ObsLine :=
  (d.x.get i).bind fun x => (d.y.get i).bind fun y => (d.z.get i).bind fun z =>
  (names[c]?).bind fun n => (v.get (d.numComp * i + c)).map fun w => .row t x y z n w

/-- `/repo/src/time_series.c:395-448` `WriteObservations`: the scatter, and the file afterwards; `names` are the names of the components of the solution,
for which there is room for `maxFieldComponents` (`:425`). In step 0 the file is written anew, otherwise lines are added. -/
noncomputable def writeObs (d : ObsData) (names : List Str) (step : ℕ) (t : ℝ) (file : List ObsLine) : Option (ObsData × List ObsLine) :=
  (scatterV d.accum d.scatter d.sitesU).bind fun v =>
  if d.numComp = 0 ∨ maxFieldComponents < d.numComp then none
  else
    ((List.range (v.len / d.numComp)).mapM fun i => (List.range d.numComp).mapM fun c => obsRow d names v t i c).map fun rows =>
      ({ d with sitesU := v }, (if step = 0 then [.header] else file) ++ rows.flatten)

/-- `VecCopy(u_global, accum_u)`: vectors of the same layout only. `/repo/src/time_series.c:541`. -/
noncomputable def vecCopy (u accum : List (Arr ℝ)) : Option (List (Arr ℝ)) :=
  if u.map Arr.len = accum.map Arr.len then some u else none

/-- A call of the monitor: number of the step, time, and the solution (by process). `/repo/src/time_series.c:529`. -/
structure ObsCall where
  step : ℕ
  time : ℝ
  u : List (Arr ℝ)

/-- `/repo/src/time_series.c:536-543`: the part of `WriteTimeSeries` about observations. -/
noncomputable def obsCall (interval : ℕ) (names : List Str) (s : ObsData × List ObsLine) (a : ObsCall) : Option (ObsData × List ObsLine) :=
  if 0 < interval ∧ a.step % interval = 0 ∧ s.1.lastStep < a.step then
    (vecCopy a.u s.1.accum).bind fun acc => writeObs { s.1 with accum := acc } names a.step a.time s.2
  else some s

/-- The calls of a run, after `InitTimeSeries` (`/repo/src/time_series.c:253-265`, called at `/repo/src/rdyadvance.c:274`) with the solution `u`; `file` is what the
file holds before. -/
noncomputable def obsRun (interval numComp : ℕ) (names : List Str) (procs : List (List ObsCell)) (sites : List ℕ) (u : List (Arr ℝ)) (file : List ObsLine)
    (calls : List ObsCall) : Option (ObsData × List ObsLine) :=
  (initObs numComp procs u sites).bind fun d => calls.foldlM (obsCall interval names) (d, file)

end RDy
