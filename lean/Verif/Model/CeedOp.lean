import Verif.Model.Batched
import Verif.Model.Ceed
import Verif.Model.Eta

/-!
Model of the flux operators of the CEED backend as they are assembled: element restrictions, packed arrays of
offsets and geometric factors, active and passive fields
(`/repo/src/operator_fluxes_ceed.c:129-285`, `:415-590`), and their application
(`/repo/src/operator.c:561-604`). The model of `Ceed.lean` treats one edge after the other instead.

libCEED itself is not part of `/repo`; what is assumed of it is written down here: an element restriction takes the
components of element `e` from consecutive entries of a vector, a Q-function is applied to all elements, and
`CeedOperatorApplyAdd` adds the results, field by field, to the vectors of *all* outputs, active or passive
(`CeedOperatorApply`, which sets all outputs to 0 first, is not used for the fluxes).

An access outside an array, or of an entry that was never set, is undefined: `none`. An entry of a vector of results is an
`Option ℝ`; there `none` is NaN. Runs without tracers, first order, without hydrostatic reconstruction.
-/

namespace RDy

/-! ### What is assumed of libCEED -/

/-- A `CeedElemRestriction` with one node for each element: with the offsets given
(`CeedElemRestrictionCreate(…, component stride 1, …)`, `/repo/src/operator_fluxes_ceed.c:230-237`; an offset that was not
set is `none`), or with the strides `{nc, 1, nc}` (`CeedElemRestrictionCreateStrided`, `:176-177`). -/
inductive Restr
  | offsets (o : Arr (Option ℕ))
  | strided (nc : ℕ)

/-- Where the first component of element `e` is; the others follow. `/repo/src/operator_fluxes_ceed.c:176-177,230-237`. -/
def Restr.base (r : Restr) (e : ℕ) : Option ℕ :=
  match r with
  | .offsets o => (o.get e).bind id
  | .strided nc => some (nc * e)

/-- An input of an operator: `CeedQFunctionAddInput` and `CeedOperatorSetField`; no vector stands for
`CEED_VECTOR_ACTIVE`. `/repo/src/operator_fluxes_ceed.c:154-160,259-265`. -/
structure CIn where
  restr : Restr
  comps : ℕ
  vec : Option (Arr ℝ)

/-- An output of an operator. `/repo/src/operator_fluxes_ceed.c:161-164,266-269`. -/
structure COut where
  restr : Restr
  comps : ℕ
  vec : Option (Arr Num)

/-- A `CeedOperator`: number of elements, fields, and the Q-function for one element, which takes the time step of its
context. `/repo/src/operator_fluxes_ceed.c:258-269`. -/
structure COp where
  elems : ℕ
  ins : List CIn
  outs : List COut
  kernel : ℝ → List (ℕ → ℝ) → Option (List (ℕ → Num))

/-- The components of an input at element `e`. `/repo/src/operator.c:587`. -/
def CIn.gather (i : CIn) (u : Arr ℝ) (e : ℕ) : Option (ℕ → ℝ) :=
  (i.restr.base e).bind fun b =>
    if b + i.comps ≤ (i.vec.getD u).len then some fun k => (i.vec.getD u).val (b + k) else none

/-- All inputs at one element, in order. `/repo/src/operator.c:587`. -/
def gatherAll (u : Arr ℝ) (e : ℕ) : List CIn → Option (List (ℕ → ℝ))
  | [] => some []
  | i :: l => (i.gather u e).bind fun x => (gatherAll u e l).map fun r => x :: r

/-- The Q-function at one element. `/repo/src/operator.c:587`. -/
def COp.point (op : COp) (dt : ℝ) (u : Arr ℝ) (e : ℕ) : Option (List (ℕ → Num)) :=
  (gatherAll u e op.ins).bind (op.kernel dt)

open Classical in
/-- The Q-function at all elements. `/repo/src/operator.c:587`. -/
noncomputable def COp.points (op : COp) (dt : ℝ) (u : Arr ℝ) : Option (ℕ → List (ℕ → Num)) :=
  if ∀ e < op.elems, (op.point dt u e).isSome then some fun e => (op.point dt u e).getD [] else none

/-- `v[p] += x`. `/repo/src/operator.c:587`. -/
def plusAt (a : Arr Num) (p : ℕ) (x : Num) : Option (Arr Num) := (a.get p).bind fun y => a.put p (y.add x)

/-- What one element adds to the vector of an output: the transposed restriction. `/repo/src/operator.c:587`. -/
def Restr.addTo (r : Restr) (nc : ℕ) (v : ℕ → Num) (a : Arr Num) (e : ℕ) : Option (Arr Num) :=
  (r.base e).bind fun b => loopM (fun (a : Arr Num) (k : ℕ) => plusAt a (b + k) (v k)) nc a

/-- One output: all elements are added to its vector. `E e` holds the results at element `e`, `f` is the number of the
output. `/repo/src/operator.c:587`. -/
def COut.addAll (o : COut) (elems : ℕ) (E : ℕ → List (ℕ → Num)) (f : ℕ) (a : Arr Num) : Option (Arr Num) :=
  loopM (fun (a : Arr Num) (e : ℕ) => o.restr.addTo o.comps ((E e).getD f fun _ => none) a e) elems a

/-- The outputs one after the other; active ones add to `rhs`, passive ones to their own vector.
`/repo/src/operator.c:587`. -/
def addOutputs (elems : ℕ) (E : ℕ → List (ℕ → Num)) : ℕ → List COut → Arr Num → Option (List COut × Arr Num)
  | _, [], rhs => some ([], rhs)
  | f, o :: l, rhs =>
    match o.vec with
    | none => (o.addAll elems E f rhs).bind fun rhs' =>
        (addOutputs elems E (f + 1) l rhs').map fun r => (o :: r.1, r.2)
    | some w => (o.addAll elems E f w).bind fun w' =>
        (addOutputs elems E (f + 1) l rhs).map fun r => ({ o with vec := some w' } :: r.1, r.2)

/-- `CeedOperatorApplyAdd`, `/repo/src/operator.c:584,587` -/
noncomputable def COp.applyAdd (op : COp) (dt : ℝ) (u : Arr ℝ) (rhs : Arr Num) : Option (COp × Arr Num) :=
  (op.points dt u).bind fun E =>
    (addOutputs op.elems E 0 op.outs rhs).map fun r => ({ op with outs := r.1 }, r.2)

/-- `CeedOperatorApplyAdd` of a composite operator: its parts one after the other. `/repo/src/operator.c:587`. -/
noncomputable def compositeAdd (dt : ℝ) (u : Arr ℝ) : List COp → Arr Num → Option (List COp × Arr Num)
  | [], rhs => some ([], rhs)
  | op :: l, rhs => (op.applyAdd dt u rhs).bind fun r =>
      (compositeAdd dt u l r.2).map fun r' => (r.1 :: r'.1, r'.2)

/-! ### Q-functions at one element -/

/-- `/repo/src/swe/swe_fluxes_ceed.h:44-101` `SWEFlux`: inputs `geom`, `q_L`, `q_R`, `eta_vert_beg`, `eta_vert_end`; outputs `cell_L`, `cell_R`,
`flux_out`, `courant_num`. A dry edge gives zeros (so does `edgeFluxCeed`). -/
noncomputable def sweKernel (P : FlowParams) (dt : ℝ) : List (ℕ → ℝ) → Option (List (ℕ → Num))
  | [geom, qL, qR, eb, ee] =>
    some
      [fun k => Num.scale ((edgeFluxCeed P.g P.tinyH P.hAnuga ⟨qL 0, qL 1, qL 2⟩ ⟨qR 0, qR 1, qR 2⟩ (geom 0) (geom 1)
          (computeDhv (geom 4) (geom 5) (eb 0) (ee 0))).map fun F => F.1.comp k) (geom 2),
       fun k => Num.scale ((edgeFluxCeed P.g P.tinyH P.hAnuga ⟨qL 0, qL 1, qL 2⟩ ⟨qR 0, qR 1, qR 2⟩ (geom 0) (geom 1)
          (computeDhv (geom 4) (geom 5) (eb 0) (ee 0))).map fun F => F.1.comp k) (geom 3),
       fun k => (edgeFluxCeed P.g P.tinyH P.hAnuga ⟨qL 0, qL 1, qL 2⟩ ⟨qR 0, qR 1, qR 2⟩ (geom 0) (geom 1)
          (computeDhv (geom 4) (geom 5) (eb 0) (ee 0))).map fun F => F.1.comp k,
       fun k => (edgeFluxCeed P.g P.tinyH P.hAnuga ⟨qL 0, qL 1, qL 2⟩ ⟨qR 0, qR 1, qR 2⟩ (geom 0) (geom 1)
          (computeDhv (geom 4) (geom 5) (eb 0) (ee 0))).map fun F =>
            if k = 0 then -F.2 * geom 2 * dt else F.2 * geom 3 * dt]
  | _ => none

/-- The flux of a boundary edge as a function of the condition, with the change of depth `dhv` along the edge:
`/repo/src/operator_fluxes_ceed.c:340-380` selects the Q-function. -/
noncomputable def boundaryFluxDhv (P : FlowParams) (bc : BCond) (q : Cons) (sn cn dhv : ℝ) : Option (Flux × ℝ) :=
  match bc with
  | .dirichlet qb => edgeFluxCeed P.g P.tinyH P.hAnuga q qb sn cn dhv
  | .reflecting => reflectFluxCeed P.g P.tinyH P.hAnuga q sn cn dhv
  | .outflow => outflowFluxCeed P.g P.tinyH P.hAnuga q sn cn dhv

/-- `/repo/src/swe/swe_fluxes_ceed.h:130-148`, `:185-204`, `:245-263`: the outputs `cell_L`, `inst_flux`, `courant_num` of a boundary
edge. -/
noncomputable def bOutputs (dt w : ℝ) (F : Option (Flux × ℝ)) : List (ℕ → Num) :=
  [fun k => Num.scale (F.map fun F => F.1.comp k) w,
   fun k => F.map fun F => F.1.comp k,
   fun _ => F.map fun F => -F.2 * w * dt]

/-- `/repo/src/swe/swe_fluxes_ceed.h:104-151` `SWEBoundaryFlux_Dirichlet` (inputs `geom`, `q_L`, `eta_vert_beg`, `eta_vert_end`, `q_R`), `:158-207`
`SWEBoundaryFlux_Reflecting` and `:214-266` `SWEBoundaryFlux_Outflow` (without `q_R`) -/
noncomputable def sweBKernel (P : FlowParams) (t : BType) (dt : ℝ) (l : List (ℕ → ℝ)) : Option (List (ℕ → Num)) :=
  match t, l with
  | .dirichlet, [geom, qL, eb, ee, qR] => some (bOutputs dt (geom 2) (boundaryFluxDhv P (.dirichlet ⟨qR 0, qR 1, qR 2⟩)
      ⟨qL 0, qL 1, qL 2⟩ (geom 0) (geom 1) (computeDhv (geom 3) (geom 4) (eb 0) (ee 0))))
  | .reflecting, [geom, qL, eb, ee] => some (bOutputs dt (geom 2) (boundaryFluxDhv P .reflecting
      ⟨qL 0, qL 1, qL 2⟩ (geom 0) (geom 1) (computeDhv (geom 3) (geom 4) (eb 0) (ee 0))))
  | .outflow, [geom, qL, eb, ee] => some (bOutputs dt (geom 2) (boundaryFluxDhv P .outflow
      ⟨qL 0, qL 1, qL 2⟩ (geom 0) (geom 1) (computeDhv (geom 3) (geom 4) (eb 0) (ee 0))))
  | _, _ => none

/-! ### Creation of the operators -/

/-- The arrays of the mesh that are read here: those of `Tables`, the two vertices of each edge, the elevations of vertices, and
`num_owned_internal_edges`. `/repo/include/private/rdymeshimpl.h:26-202`. -/
structure CTables extends Tables where
  vertexIds : Arr ℕ
  vz : Arr ℝ
  numOwnedInternal : ℕ

/-- `for (e = 0, owned_edge = 0; e < n; e++) { iedge = ids[e]; if (!is_owned[iedge]) continue; …; owned_edge++; }`: `body s i e id`
is what is done for edge `id`, number `e` of the list and number `i` of the owned ones.
`/repo/src/operator_fluxes_ceed.c:182-200`. -/
def ownedStep {σ : Type} (T : CTables) (ids : Arr ℕ) (body : σ → ℕ → ℕ → ℕ → Option σ) (s : σ × ℕ) (e : ℕ) : Option (σ × ℕ) :=
  (ids.get e).bind fun id => (T.edgeOwned.get id).bind fun w =>
    if w then (body s.1 s.2 e id).map fun s' => (s', s.2 + 1) else some s

/-- The whole loop. `/repo/src/operator_fluxes_ceed.c:182-200`. -/
def ownedLoopC {σ : Type} (T : CTables) (ids : Arr ℕ) (body : σ → ℕ → ℕ → ℕ → Option σ) (s : σ) : Option (σ × ℕ) :=
  loopM (ownedStep T ids body) ids.len (s, 0)

/-- `a[nd*i] = x0; a[nd*i+1] = x1; …`, the entries `g[i][0]`, `g[i][1]`, … `/repo/src/operator_fluxes_ceed.c:187-197`. -/
def putRow (nd : ℕ) (G : ℕ → ℝ) (a : Arr ℝ) (i : ℕ) : Option (Arr ℝ) :=
  loopM (fun (a : Arr ℝ) (d : ℕ) => a.put (nd * i + d) (G d)) nd a

/-- `/repo/src/operator_fluxes_ceed.c:185-197`: the geometric factors of an internal edge. -/
noncomputable def geomBody (T : CTables) (g : Arr ℝ) (i _e id : ℕ) : Option (Arr ℝ) :=
  (T.cellIds.get (2 * id)).bind fun l => (T.cellIds.get (2 * id + 1)).bind fun r =>
  (asIndex l).bind fun l' => (asIndex r).bind fun r' =>
  (T.sn.get id).bind fun s => (T.cn.get id).bind fun c => (T.elen.get id).bind fun len =>
  (T.area.get l').bind fun al => (T.area.get r').bind fun ar =>
  (T.vertexIds.get (2 * id)).bind fun vb => (T.vertexIds.get (2 * id + 1)).bind fun ve =>
  (T.vz.get vb).bind fun zb => (T.vz.get ve).bind fun ze =>
    putRow 6 (fun k => if k = 0 then s else if k = 1 then c else if k = 2 then -len / al else if k = 3 then len / ar
      else if k = 4 then zb else ze) g i

/-- The arrays of offsets `q_offset_l`, `q_offset_r`, `c_offset_l`, `c_offset_r`, `eta_beg_offset`, `eta_end_offset` (and, for a boundary,
`offset_dirichlet` in the place of `qr`). `/repo/src/operator_fluxes_ceed.c:211-214`. -/
structure Offsets where
  ql : Arr (Option ℕ)
  qr : Arr (Option ℕ)
  cl : Arr (Option ℕ)
  cr : Arr (Option ℕ)
  eb : Arr (Option ℕ)
  ee : Arr (Option ℕ)

/-- `PetscMalloc2(…)`: arrays of `n` entries, none of them set. `/repo/src/operator_fluxes_ceed.c:211-214`. -/
def Offsets.malloc (n : ℕ) : Offsets :=
  ⟨Arr.calloc n none, Arr.calloc n none, Arr.calloc n none, Arr.calloc n none, Arr.calloc n none, Arr.calloc n none⟩

/-- `/repo/src/operator_fluxes_ceed.c:218-228`: the offsets of an internal edge (`num_comp` is 3). -/
def offsetBody (T : CTables) (o : Offsets) (i _e id : ℕ) : Option Offsets :=
  (T.cellIds.get (2 * id)).bind fun l => (T.cellIds.get (2 * id + 1)).bind fun r =>
  (asIndex l).bind fun l' => (asIndex r).bind fun r' =>
  (o.ql.put i (some (3 * l'))).bind fun ql => (o.qr.put i (some (3 * r'))).bind fun qr =>
  (T.l2o.get l').bind fun lo => (o.cl.put i (some (3 * lo))).bind fun cl =>
  (T.l2o.get r').bind fun ro => (o.cr.put i (some (3 * ro))).bind fun cr =>
  (T.vertexIds.get (2 * id)).bind fun vb => (T.vertexIds.get (2 * id + 1)).bind fun ve =>
  (o.eb.put i (some (1 * vb))).bind fun eb => (o.ee.put i (some (1 * ve))).map fun ee => ⟨ql, qr, cl, cr, eb, ee⟩

/-- `/repo/src/operator_fluxes_ceed.c:129-285` `CreateCeedInteriorFluxSuboperator`; `eta` is the vector of elevations at vertices. -/
noncomputable def createInteriorC (P : FlowParams) (T : CTables) (eta : Arr ℝ) : Option COp :=
  (ownedLoopC T T.internal (geomBody T) (Arr.calloc (6 * T.numOwnedInternal) 0)).bind fun g =>
  (ownedLoopC T T.internal (offsetBody T) (Offsets.malloc T.numOwnedInternal)).map fun o =>
    { elems := T.numOwnedInternal
      ins := [⟨.strided 6, 6, some g.1⟩, ⟨.offsets o.1.ql, 3, none⟩, ⟨.offsets o.1.qr, 3, none⟩,
        ⟨.offsets o.1.eb, 1, some eta⟩, ⟨.offsets o.1.ee, 1, some eta⟩]
      outs := [⟨.offsets o.1.cl, 3, none⟩, ⟨.offsets o.1.cr, 3, none⟩,
        ⟨.strided 3, 3, some (Arr.calloc (3 * T.numOwnedInternal) (some 0))⟩,
        ⟨.strided 2, 2, some (Arr.calloc (2 * T.numOwnedInternal) (some 0))⟩]
      kernel := sweKernel P }

/-- `/repo/src/operator_fluxes_ceed.c:471-474`: the number of edges of a boundary that are owned. -/
def countOwned (T : CTables) (ids : Arr ℕ) : Option ℕ := (ownedLoopC T ids (fun (_ : Unit) _ _ _ => some ()) ()).map Prod.snd

/-- `/repo/src/operator_fluxes_ceed.c:483-496`: the geometric factors of a boundary edge. -/
noncomputable def bGeomBody (T : CTables) (g : Arr ℝ) (i _e id : ℕ) : Option (Arr ℝ) :=
  (T.cellIds.get (2 * id)).bind fun l => (asIndex l).bind fun l' =>
  (T.sn.get id).bind fun s => (T.cn.get id).bind fun c => (T.elen.get id).bind fun len =>
  (T.area.get l').bind fun al =>
  (T.vertexIds.get (2 * id)).bind fun vb => (T.vertexIds.get (2 * id + 1)).bind fun ve =>
  (T.vz.get vb).bind fun zb => (T.vz.get ve).bind fun ze =>
    putRow 5 (fun k => if k = 0 then s else if k = 1 then c else if k = 2 then -len / al
      else if k = 3 then zb else ze) g i

/-- `/repo/src/operator_fluxes_ceed.c:514-530`: the offsets of a boundary edge; the one of the Dirichlet values (kept in `qr`) uses the
number of the edge among all edges of the boundary. (The code sets it only for Dirichlet conditions and has no array for
the other conditions.) -/
def bOffsetBody (T : CTables) (o : Offsets) (i e id : ℕ) : Option Offsets :=
  (T.cellIds.get (2 * id)).bind fun l => (asIndex l).bind fun l' =>
  (o.ql.put i (some (3 * l'))).bind fun ql =>
  (T.l2o.get l').bind fun lo => (o.cl.put i (some (3 * lo))).bind fun cl =>
  (o.qr.put i (some (3 * e))).bind fun qr =>
  (T.vertexIds.get (2 * id)).bind fun vb => (T.vertexIds.get (2 * id + 1)).bind fun ve =>
  (o.eb.put i (some (1 * vb))).bind fun eb => (o.ee.put i (some (1 * ve))).map fun ee => ⟨ql, qr, cl, o.cr, eb, ee⟩

/-- The inputs of the operator of a boundary, `/repo/src/operator_fluxes_ceed.c:440-450,557-566`. -/
def bInputs (B : Bnd) (g : Arr ℝ) (o : Offsets) (eta : Arr ℝ) : List CIn :=
  match B.type with
  | .dirichlet => [⟨.strided 5, 5, some g⟩, ⟨.offsets o.ql, 3, none⟩, ⟨.offsets o.eb, 1, some eta⟩, ⟨.offsets o.ee, 1, some eta⟩,
      ⟨.offsets o.qr, 3, some B.values⟩]
  | _ => [⟨.strided 5, 5, some g⟩, ⟨.offsets o.ql, 3, none⟩, ⟨.offsets o.eb, 1, some eta⟩, ⟨.offsets o.ee, 1, some eta⟩]

/-- `/repo/src/operator_fluxes_ceed.c:415-590` `CreateCeedBoundaryFluxSuboperator`. The vector of Dirichlet values is created with zeros
(`:552-553`) and filled later (`Data.lean`, `BoundaryIO.lean`); here it is `B.values` from the beginning. -/
noncomputable def createBoundaryC (P : FlowParams) (T : CTables) (eta : Arr ℝ) (B : Bnd) : Option COp :=
  (countOwned T B.ids).bind fun n =>
  (ownedLoopC T B.ids (bGeomBody T) (Arr.calloc (5 * B.ids.len) 0)).bind fun g =>
  (ownedLoopC T B.ids (bOffsetBody T) (Offsets.malloc B.ids.len)).map fun o =>
    { elems := n
      ins := bInputs B g.1 o.1 eta
      outs := [⟨.offsets o.1.cl, 3, none⟩, ⟨.strided 3, 3, some (Arr.calloc (3 * B.ids.len) (some 0))⟩,
        ⟨.strided 1, 1, some (Arr.calloc (1 * B.ids.len) (some 0))⟩]
      kernel := sweBKernel P B.type }

/-- The operators of the boundaries, in order. `/repo/src/operator_fluxes_ceed.c:625-640`. -/
noncomputable def createBoundariesC (P : FlowParams) (T : CTables) (eta : Arr ℝ) : List Bnd → Option (List COp)
  | [] => some []
  | B :: l => (createBoundaryC P T eta B).bind fun op => (createBoundariesC P T eta l).map fun r => op :: r

/-- `/repo/src/operator_fluxes_ceed.c:592-645` `CreateCeedFluxOperator` (first order, without hydrostatic reconstruction): the internal
edges, then the boundaries. -/
noncomputable def createFluxC (P : FlowParams) (T : CTables) (eta : Arr ℝ) (Bs : List Bnd) : Option (List COp) :=
  (createInteriorC P T eta).bind fun i => (createBoundariesC P T eta Bs).map fun r => i :: r

/-- `/repo/src/operator.c:561-604`: one evaluation of the flux divergences; the vector for them (of `numCells` local cells) is set to 0,
then the operators are applied. -/
noncomputable def fluxEvaluationC (numCells : ℕ) (dt : ℝ) (u : Arr ℝ) (ops : List COp) : Option (List COp × Arr Num) :=
  compositeAdd dt u ops (Arr.calloc (3 * numCells) (some 0))

/-- Evaluations one after the other, with the time step and the state of each, and what the operators hold after them.
`/repo/src/operator.c:561-604`. -/
noncomputable def fluxEvaluationsC (numCells : ℕ) : List (ℝ × Arr ℝ) → List COp → Option (List COp)
  | [], ops => some ops
  | (dt, u) :: l, ops => (fluxEvaluationC numCells dt u ops).bind fun r => fluxEvaluationsC numCells l r.1

/-! ### Boundary fluxes for the time series -/

/-- The vector of the field "flux" of the operator of a boundary, `CeedOperatorGetFieldByName` and `CeedOperatorFieldGetVector`,
`/repo/src/time_series.c:484-487`. -/
def COp.fluxVec (op : COp) : Option (Arr Num) := (op.outs[1]?).bind fun o => o.vec

/-- What the passive output `j` of an operator holds: the vector of its field. `/repo/src/operator_fluxes_ceed.c:266-269,567-569`,
`/repo/src/operator.c:281-287,322-326`. -/
def COp.outVec (op : COp) (j : ℕ) : Option (Arr Num) := (op.outs[j]?).bind fun o => o.vec

/-- `CeedVectorAXPY(y, a, x)`, `/repo/src/time_series.c:493` -/
def axpyC (y : Arr Num) (a : ℝ) (x : Arr Num) : Arr Num := ⟨y.len, fun i => (y.val i).add ((x.val i).scale a)⟩

/-- The vectors `flux_accumulated` of the boundaries as created, `/repo/src/operator_fluxes_ceed.c:502-504`. -/
def createAccumC (Bs : List Bnd) : List (Arr Num) := Bs.map fun B => Arr.calloc (3 * B.ids.len) (some 0)

/-- `/repo/src/time_series.c:470-498`, for the operators and the vectors `flux_accumulated` of all boundaries -/
def accumulateC (dt : ℝ) : List COp → List (Arr Num) → Option (List (Arr Num))
  | op :: ops, a :: l => op.fluxVec.bind fun v => (accumulateC dt ops l).map fun r => axpyC a dt v :: r
  | _, _ => some []

/-- Steps of forward Euler: each evaluates the right-hand side once, for the state at its beginning, and then adds to the
accumulated boundary fluxes. The operator of the internal edges is the first one.
`/repo/src/operator.c:561-604`, `/repo/src/time_series.c:462-500`. -/
noncomputable def eulerStepsC (numCells : ℕ) : List (ℝ × Arr ℝ) → List COp → List (Arr Num) → Option (List COp × List (Arr Num))
  | [], ops, acc => some (ops, acc)
  | (dt, u) :: l, ops, acc => (fluxEvaluationC numCells dt u ops).bind fun r =>
      (accumulateC dt r.1.tail acc).bind fun acc' => eulerStepsC numCells l r.1 acc'

/-- `/repo/src/operator.c:926-944` `ExtractCeedOperatorBoundaryFluxes`: component `c` recorded for edge `e` of the boundary is taken
from row `e` of the vector `flux_accumulated` (`none` at the outside: an access outside of it). -/
def extractFluxC (a : Arr Num) (c e : ℕ) : Option Num := a.get (3 * e + c)

end RDy
