import Verif.Model.Batched
import Verif.Model.Operator
import Verif.Model.Eta

/-!
Model of the right-hand side of the PETSc backend as it is assembled (first order, no tracers): which operators are created for a
configuration (`/repo/src/operator.c:194-217`, `/repo/src/operator_fluxes_petsc.c:17-95`, `/repo/src/operator_sources_petsc.c:13-45`), the
operator with hydrostatic reconstruction with the arrays and bed elevations that it keeps (`/repo/src/swe/swe_petsc.c:985-1229`), the
source operators with their arrays (`/repo/src/swe/swe_petsc.c:690-983`), and the evaluation (`/repo/src/operator.c:656-672`).

As in `Batched.lean`, an access outside an array is undefined (`none`), and an entry of an array of results is a `Num` (`none` is NaN).
Courant numbers are left out (`Courant.lean`).
-/

namespace RDy

/-- Further arrays of `RDyCells` and `RDyVertices` (`/repo/include/private/rdymeshimpl.h:26-202`): the vertices of cells (`vertex_offsets`,
`vertex_ids`, `num_vertices`), the elevations of vertices (`points[v].X[2]`) and of the centroids of cells (`centroids[c].X[2]`), the
slopes `dz_dx`, `dz_dy`; and whether the configuration names a file with elevations of cells
(`config.grid.cell_elevation.file[0]`). -/
structure BedTables where
  offsets : Arr ℕ
  ids : Arr ℕ
  count : Arr ℕ
  z : Arr ℝ
  centroidZ : Arr ℝ
  dzdx : Arr ℝ
  dzdy : Arr ℝ
  fromFile : Bool

/-! ### The interior operator with hydrostatic reconstruction -/

/-- `/repo/src/swe/swe_petsc.c:1216-1219`: one vertex of the sum. -/
def zSumStep (V : BedTables) (start : ℕ) (s : ℝ) (k : ℕ) : Option ℝ :=
  (V.ids.get (start + k)).bind fun v => (V.z.get v).map fun z => s + z

/-- `/repo/src/swe/swe_petsc.c:1209-1222`: the bed elevation of one cell. A cell without vertices (division by zero) is undefined here. -/
noncomputable def zcStep (V : BedTables) (zc : Arr ℝ) (c : ℕ) : Option (Arr ℝ) :=
  if V.fromFile then (V.centroidZ.get c).bind fun z => zc.put c z
  else
    (V.offsets.get c).bind fun a => (V.offsets.get (c + 1)).bind fun b =>
    (loopM (zSumStep V a) (b - a) 0).bind fun s => (V.count.get c).bind fun n =>
      if n = 0 then none else zc.put c (s / n)

/-- `/repo/src/swe/swe_petsc.c:1205-1223`: the bed elevations of all cells. -/
noncomputable def createZc (V : BedTables) (nc : ℕ) : Option (Arr ℝ) := loopM (zcStep V) nc (Arr.calloc nc 0)

/-- `datal->h[e] = …; datal->u[e] = …; datal->v[e] = …;` for cell `c`, whose bed is at `z`; `zmax` is the higher of the two beds.
`/repo/src/swe/swe_petsc.c:1041-1072`. -/
noncomputable def putHR (P : FlowParams) (a : Arr RState) (e : ℕ) (u : Arr ℝ) (c : ℕ) (z zmax : ℝ) : Option (Arr RState) :=
  (u.get (3 * c + 0)).bind fun h => (u.get (3 * c + 1)).bind fun hu => (u.get (3 * c + 2)).bind fun hv =>
    (a.get e).bind fun s => a.put e { s with
      h := max 0 (h + z - zmax)
      u := if h > P.tinyH then hu * h / (h * h + P.hAnuga * P.hAnuga) else 0
      v := if h > P.tinyH then hv * h / (h * h + P.hAnuga * P.hAnuga) else 0 }

/-- `/repo/src/swe/swe_petsc.c:1034-1073`: one edge of the loop that reconstructs the states. -/
noncomputable def hrGatherStep (P : FlowParams) (T : Tables) (zc u : Arr ℝ) (b : Batch) (e : ℕ) : Option Batch :=
  (T.internal.get e).bind fun id =>
  (T.cellIds.get (2 * id)).bind fun l =>
  (T.cellIds.get (2 * id + 1)).bind fun r =>
    if r = -1 then some b
    else
      (asIndex l).bind fun l' => (asIndex r).bind fun r' =>
      (zc.get l').bind fun zl => (zc.get r').bind fun zr =>
      (putHR P b.left e u l' zl (max zl zr)).bind fun L => (putHR P b.right e u r' zr (max zl zr)).bind fun R =>
        some { b with left := L, right := R }

/-- `f_ptr[p] += x`, `/repo/src/swe/swe_petsc.c:1145-1154` -/
def incr (f : Arr Num) (p : ℕ) (x : Num) : Option (Arr Num) := (f.get p).bind fun y => f.put p (y.add x)

/-- `/repo/src/swe/swe_petsc.c:1144-1153`: the pressure correction of one cell, if it is owned. -/
def addCorrection (T : Tables) (c : ℕ) (corr sn cn s : ℝ) (f : Arr Num) : Option (Arr Num) :=
  (T.owned.get c).bind fun w =>
    if w then (T.l2o.get c).bind fun o =>
      (incr f (3 * o + 1) (some (corr * cn * s))).bind fun f1 => incr f1 (3 * o + 2) (some (corr * sn * s))
    else some f

/-- `/repo/src/swe/swe_petsc.c:1094-1153`: what a wet edge adds to its cells; `hl`, `hr` are the depths of its cells. -/
noncomputable def hrAddWet (P : FlowParams) (T : Tables) (b : Batch) (e id l r : ℕ) (hl hr zl zr : ℝ) (f : Arr Num) :
    Option (Arr Num) :=
  (T.elen.get id).bind fun len => (T.area.get l).bind fun al => (T.area.get r).bind fun ar =>
  (b.cn.get e).bind fun cn => (b.sn.get e).bind fun sn =>
  (if max 0 (hl + zl - max zl zr) > P.tinyH ∨ max 0 (hr + zr - max zl zr) > P.tinyH then addToCells 3 T b.flux e id l r f
    else some f).bind fun f1 =>
  (addCorrection T l (0.5 * P.g * (hl * hl - max 0 (hl + zl - max zl zr) * max 0 (hl + zl - max zl zr))) sn cn (-len / al) f1).bind fun f2 =>
  addCorrection T r (0.5 * P.g * (hr * hr - max 0 (hr + zr - max zl zr) * max 0 (hr + zr - max zl zr))) sn cn (len / ar) f2

/-- `/repo/src/swe/swe_petsc.c:1084-1155`: one edge of the loop that adds fluxes and corrections. -/
noncomputable def hrAddStep (P : FlowParams) (T : Tables) (zc u : Arr ℝ) (b : Batch) (f : Arr Num) (e : ℕ) : Option (Arr Num) :=
  (T.internal.get e).bind fun id =>
  (T.cellIds.get (2 * id)).bind fun l =>
  (T.cellIds.get (2 * id + 1)).bind fun r =>
    if r = -1 then some f
    else
      (asIndex l).bind fun l' => (asIndex r).bind fun r' =>
      (u.get (3 * l' + 0)).bind fun hl => (u.get (3 * r' + 0)).bind fun hr =>
        if hr < P.tinyH ∧ hl < P.tinyH then some f
        else (zc.get l').bind fun zl => (zc.get r').bind fun zr => hrAddWet P T b e id l' r' hl hr zl zr f

/-- `/repo/src/swe/swe_petsc.c:1000-1161` `ApplyInteriorFluxHR`: what is kept, and the right-hand side. -/
noncomputable def applyInteriorHRB (P : FlowParams) (T : Tables) (zc : Arr ℝ) (b : Batch) (u : Arr ℝ) (f : Arr Num) :
    Option (Batch × Arr Num) :=
  (loopM (hrGatherStep P T zc u) T.internal.len b).bind fun b1 =>
  (roeB P.g b1.left b1.right b1.sn b1.cn b1.flux).bind fun F =>
  (loopM (hrAddStep P T zc u { b1 with flux := F }) T.internal.len f).map fun f' => ({ b1 with flux := F }, f')

/-! ### The source operators -/

/-- `/repo/src/swe/swe_petsc.c:753-757`: the bed-slope term of cell `c`. -/
noncomputable def bedTermB (P : FlowParams) (includeSlope : Bool) (V : BedTables) (c : ℕ) (h : ℝ) : Option (ℝ × ℝ) :=
  if includeSlope then (V.dzdx.get c).bind fun a => (V.dzdy.get c).map fun b => (a * P.g * h, b * P.g * h) else some (0, 0)

/-- The friction term (`/repo/src/swe/swe_petsc.c:759-780`, `:872-908`), where a divergence may be NaN. Simplified: if one of the two
divergences is NaN both terms are (with `semi_implicit` the other one would not be; divergences are NaN together, as they come from one flux). -/
noncomputable def frictionB (P : FlowParams) (m : FrictionMethod) (dt n : ℝ) (q : Cons) (fx fy : Num) (bx bY : ℝ) : Option (ℝ × ℝ) :=
  if q.h ≥ P.tinyH then fx.bind fun Fx => fy.bind fun Fy => friction P m dt n q Fx Fy bx bY else some (0, 0)

/-- what `ApplyPetscOperator` fills besides the right-hand side: the primitive variables.
`/repo/src/swe/swe_petsc.c:727-732`. -/
structure SrcOut where
  f : Arr Num
  pv : Arr ℝ

/-- `/repo/src/swe/swe_petsc.c:788-793`: the primitive variables of a cell with owned number `o`. -/
noncomputable def putPrim (P : FlowParams) (pv : Arr ℝ) (o : ℕ) (q : Cons) : Option (Arr ℝ) :=
  (pv.put (3 * o + 0) q.h).bind fun p1 =>
  (p1.put (3 * o + 1) (if q.h ≥ P.tinyH then q.hu * q.h / (q.h * q.h + P.hAnuga * P.hAnuga) else 0)).bind fun p2 =>
  p2.put (3 * o + 2) (if q.h ≥ P.tinyH then q.hv * q.h / (q.h * q.h + P.hAnuga * P.hAnuga) else 0)

/-- `/repo/src/swe/swe_petsc.c:783-786`: the sources of a cell with owned number `o` are added; `b` is its bed-slope term, `t` its friction
term. -/
def addSourceB (src : Arr ℝ) (o : ℕ) (b : ℝ × ℝ) (t : Option (ℝ × ℝ)) (f : Arr Num) : Option (Arr Num) :=
  (src.get (3 * o + 0)).bind fun s0 => (src.get (3 * o + 1)).bind fun s1 => (src.get (3 * o + 2)).bind fun s2 =>
  (incr f (3 * o + 0) (some s0)).bind fun f1 =>
  (incr f1 (3 * o + 1) (t.map fun t => -b.1 - t.1 + s1)).bind fun f2 =>
  incr f2 (3 * o + 2) (t.map fun t => -b.2 - t.2 + s2)

/-- `/repo/src/swe/swe_petsc.c:740-795` (and `:853-922`): one cell of `ApplySourceSemiImplicit` (`ApplySourceImplicitXQ2018`). `fd` is the
vector `riemannf`; there is one material property (`NUM_MATERIAL_PROPERTIES`, `/repo/CMakeLists.txt:18`). Simplified: Manning's coefficient and
the divergences are read also if the cell is dry. -/
noncomputable def sourceStepB (P : FlowParams) (m : FrictionMethod) (slope : Bool) (T : Tables) (V : BedTables) (dt : ℝ)
    (src mat : Arr ℝ) (fd : Arr Num) (u : Arr ℝ) (s : SrcOut) (c : ℕ) : Option SrcOut :=
  (T.owned.get c).bind fun w =>
    if w then
      (T.l2o.get c).bind fun o =>
      (u.get (3 * c + 0)).bind fun h => (u.get (3 * c + 1)).bind fun hu => (u.get (3 * c + 2)).bind fun hv =>
      (bedTermB P slope V c h).bind fun b =>
      (fd.get (3 * o + 1)).bind fun fx => (fd.get (3 * o + 2)).bind fun fy =>
      (mat.get (1 * o + 0)).bind fun n =>
      (addSourceB src o b (frictionB P m dt n ⟨h, hu, hv⟩ fx fy b.1 b.2) s.f).bind fun f' =>
      (putPrim P s.pv o ⟨h, hu, hv⟩).map fun pv' => ⟨f', pv'⟩
    else some s

/-- `/repo/src/swe/swe_petsc.c:704-804`, `:816-932`: the source operators, for `nc` local cells. Simplified: `n_dof` is 3 here; it is computed by a division by the number of owned cells
(`:740`, `:853`), which is undefined on a process without any. That such a process gets not so far is shown in `Props/Parts.lean` (C125). -/
noncomputable def applySourceB (P : FlowParams) (m : FrictionMethod) (slope : Bool) (T : Tables) (V : BedTables) (nc : ℕ) (dt : ℝ)
    (src mat : Arr ℝ) (fd : Arr Num) (u : Arr ℝ) (s : SrcOut) : Option SrcOut :=
  loopM (sourceStepB P m slope T V dt src mat fd u) nc s

/-! ### The operators of a run -/

/-- The methods of the configuration that select operators: `numerics.well_balancing` and `physics.flow.source.method`
(`/repo/src/operator.c:194-217`, `/repo/src/swe/swe_petsc.c:966-976`, `:1252-1262`; methods other than these two are refused). -/
structure PetscCfg where
  wb : WellBalancing
  method : FrictionMethod

/-- What all operators of a run keep: that of the fluxes, and `zc` if there is hydrostatic reconstruction.
`/repo/src/swe/swe_petsc.c:988-998`. -/
structure PetscMem where
  flux : FluxMem
  zc : Option (Arr ℝ)

/-- The operators that `/repo/src/operator.c:194-217` creates: with hydrostatic reconstruction those of
`/repo/src/operator_fluxes_petsc.c:59-95`, otherwise those of `:17-54` (also for `bs2002`); the normals are copied in the same way
(`/repo/src/swe/swe_petsc.c:1194-1203`). -/
noncomputable def createPetsc (C : PetscCfg) (T : Tables) (V : BedTables) (Bs : List Bnd) (nc : ℕ) : Option PetscMem :=
  (createInteriorB T).bind fun b =>
  (Bs.mapM (createBoundaryB T)).bind fun ss =>
    if C.wb = .hr then (createZc V nc).map fun zc => ⟨⟨b, ss⟩, some zc⟩ else some ⟨⟨b, ss⟩, none⟩

/-- The interior fluxes: `ApplyInteriorFluxHR` for operators that have `zc`, otherwise `ApplyInteriorFlux`.
`/repo/src/operator_fluxes_petsc.c:30-36`, `:71-76`. -/
noncomputable def applyInteriorOf (P : FlowParams) (T : Tables) (M : PetscMem) (u : Arr ℝ) (f : Arr Num) : Option (Batch × Arr Num) :=
  match M.zc with
  | none => applyInteriorB P T M.flux.interior u f
  | some zc => applyInteriorHRB P T zc M.flux.interior u f

/-- The data that the source operator reads and writes besides: external sources, material properties, primitive variables, and
the copy of the external sources for output. `/repo/src/operator.c:117-145`. -/
structure PetscVecs where
  src : Arr ℝ
  mat : Arr ℝ
  pv : Arr ℝ
  srcInst : Arr ℝ

/-- `/repo/src/operator.c:656-672` `ApplyPetscOperator` into the zeroed vector of `n` owned cells (`/repo/src/rdysetup.c:1130`); `nc` is the number
of local cells. The bed slope belongs to the sources without hydrostatic reconstruction only (`/repo/src/swe/swe_petsc.c:960`, `:1245`). -/
noncomputable def applyPetsc (P : FlowParams) (C : PetscCfg) (T : Tables) (V : BedTables) (Bs : List Bnd) (nc n : ℕ) (dt : ℝ)
    (M : PetscMem) (D : PetscVecs) (u : Arr ℝ) : Option (PetscMem × PetscVecs × Arr Num) :=
  (applyInteriorOf P T M u (Arr.calloc (3 * n) (some 0))).bind fun r =>
  (applyBoundariesB P T dt u Bs M.flux.bnds r.2).bind fun q =>
  (applySourceB P C.method (decide (C.wb ≠ .hr)) T V nc dt D.src D.mat q.2 u ⟨q.2, D.pv⟩).map fun s =>
    (⟨⟨r.1, q.1⟩, M.zc⟩, { D with pv := s.pv, srcInst := D.src }, s.f)

/-- A sequence of evaluations, each with its step, state, external sources and material properties (which setters change in between):
the right-hand sides. `/repo/src/rdysetup.c:1120-1142`. -/
noncomputable def petscEvaluations (P : FlowParams) (C : PetscCfg) (T : Tables) (V : BedTables) (Bs : List Bnd) (nc n : ℕ) :
    PetscMem → PetscVecs → List (ℝ × Arr ℝ × Arr ℝ × Arr ℝ) → Option (PetscMem × PetscVecs × List (Arr Num))
  | M, D, [] => some (M, D, [])
  | M, D, (dt, u, src, mat) :: rest =>
    (applyPetsc P C T V Bs nc n dt M { D with src := src, mat := mat } u).bind fun r =>
      (petscEvaluations P C T V Bs nc n r.1 r.2.1 rest).map fun q => (q.1, q.2.1, r.2.2 :: q.2.2)

end RDy
