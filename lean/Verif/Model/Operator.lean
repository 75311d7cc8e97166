import Verif.Model.Roe
import Mathlib.Algebra.BigOperators.Group.Finset.Basic

/-!
Model of the PETSc (CPU) right-hand side of the shallow-water equations on one process:
`/repo/src/swe/swe_petsc.c`, `/repo/src/operator.c` (`ApplyPetscOperator`) and
`/repo/src/rdysetup.c` (`OperatorRHSFunction`).

Cells are numbered locally; the solution is read with local numbers (owned and ghost cells) and the
right-hand side is written with owned numbers. A NaN in a term that is added to a cell makes the whole
result `none` (a simplification: in the code only that cell is spoilt at first).
-/

namespace RDy

/-- componentwise sum of two entries of the right-hand side. `/repo/src/swe/swe_petsc.c:298-307`. -/
def Flux.add (a b : Flux) : Flux := ⟨a.m + b.m, a.x + b.x, a.y + b.y⟩

/-- multiple of an entry of the right-hand side. `/repo/src/swe/swe_petsc.c:298-307`. -/
def Flux.smul (s : ℝ) (a : Flux) : Flux := ⟨a.m * s, a.x * s, a.y * s⟩

/-- the zero entry (`VecZeroEntries`, `/repo/src/rdysetup.c:1130`) -/
def Flux.zero : Flux := ⟨0, 0, 0⟩

/-- `f_ptr[n_dof * i + …] += …`. `/repo/src/swe/swe_petsc.c:298-307`. -/
def addAt (f : ℕ → Flux) (i : ℕ) (F : Flux) : ℕ → Flux := fun j => if j = i then (f j).add F else f j

/-- An internal edge as one process sees it: local numbers of its cells (`right = none` stands for
`-1`), length, normal (`/repo/include/private/rdymeshimpl.h:26-202`, `RDyEdges`). -/
structure IEdge where
  left : ℕ
  right : Option ℕ
  len : ℝ
  sn : ℝ
  cn : ℝ

/-- A boundary edge as one process sees it, with the flow condition of its boundary
(`/repo/src/swe/swe_petsc.c:541-573`). -/
structure BEdge where
  cell : ℕ
  len : ℝ
  sn : ℝ
  cn : ℝ
  bc : BCond

/-- The mesh of one process (`RDyMesh`): number of local cells, areas, which local cells are owned, their
owned numbers, internal edges, boundary edges (of all boundaries, in order), bed slopes, bed elevations
used for hydrostatic reconstruction. `/repo/include/private/rdymeshimpl.h:26-202`. -/
structure PMesh where
  numCells : ℕ
  area : ℕ → ℝ
  owned : ℕ → Bool
  l2o : ℕ → ℕ
  internal : List IEdge
  boundary : List BEdge
  dzdx : ℕ → ℝ
  dzdy : ℕ → ℝ
  zc : ℕ → ℝ

/-- physical and numerical parameters of the flow operators.
`/repo/include/private/rdyconfigimpl.h:73-85`. -/
structure FlowParams where
  g : ℝ
  tinyH : ℝ
  hAnuga : ℝ
  xqThreshold : ℝ

/-- `if (cells->is_owned[c]) f_ptr[n_dof * local_to_owned[c] + i] += …`.
`/repo/src/swe/swe_petsc.c:298-307`. -/
def addOwned (pm : PMesh) (f : ℕ → Flux) (c : ℕ) (F : Flux) : ℕ → Flux :=
  if pm.owned c then addAt f (pm.l2o c) F else f

/-- `/repo/src/swe/swe_petsc.c:298-307`: both cells of an edge receive the flux. -/
def addBoth (pm : PMesh) (f : ℕ → Flux) (l r : ℕ) (FL FR : Flux) : ℕ → Flux :=
  addOwned pm (addOwned pm f l FL) r FR

/-- `/repo/src/swe/swe_petsc.c:244-310`: one internal edge of `ApplyInteriorFlux`. -/
noncomputable def interiorEdge (P : FlowParams) (pm : PMesh) (u : ℕ → Cons) (f : ℕ → Flux)
    (e : IEdge) : Option (ℕ → Flux) :=
  match e.right with
  | none => some f
  | some r =>
    (usedFlux P.g P.tinyH (velocities P.tinyH P.hAnuga (u e.left)) (velocities P.tinyH P.hAnuga (u r))
      e.sn e.cn).map fun F =>
        addBoth pm f e.left r (F.smul (-e.len / pm.area e.left)) (F.smul (e.len / pm.area r))

/-- `/repo/src/swe/swe_petsc.c:215-316` `ApplyInteriorFlux`. -/
noncomputable def applyInterior (P : FlowParams) (pm : PMesh) (u : ℕ → Cons) (f : ℕ → Flux) :
    Option (ℕ → Flux) :=
  pm.internal.foldlM (interiorEdge P pm u) f

/-- `/repo/src/swe/swe_petsc.c:541-607`: one boundary edge of `ApplyBoundaryFlux`. -/
noncomputable def boundaryEdge (P : FlowParams) (pm : PMesh) (u : ℕ → Cons) (f : ℕ → Flux)
    (e : BEdge) : Option (ℕ → Flux) :=
  if pm.owned e.cell then
    (usedFlux P.g P.tinyH (boundaryStates P.g P.tinyH P.hAnuga e.bc (u e.cell) e.sn e.cn).1
      (boundaryStates P.g P.tinyH P.hAnuga e.bc (u e.cell) e.sn e.cn).2 e.sn e.cn).map fun F =>
        addOwned pm f e.cell (F.smul (-e.len / pm.area e.cell))
  else some f

/-- `/repo/src/swe/swe_petsc.c:506-630` `ApplyBoundaryFlux`, for all boundaries in turn. -/
noncomputable def applyBoundary (P : FlowParams) (pm : PMesh) (u : ℕ → Cons) (f : ℕ → Flux) :
    Option (ℕ → Flux) :=
  pm.boundary.foldlM (boundaryEdge P pm u) f

/-! ### Source terms -/

/-- The bed-slope term of a cell, `/repo/src/swe/swe_petsc.c:753-757`. -/
noncomputable def bedTerm (P : FlowParams) (includeSlope : Bool) (dzdx dzdy h : ℝ) : ℝ × ℝ :=
  if includeSlope then (dzdx * P.g * h, dzdy * P.g * h) else (0, 0)

/-- `/repo/src/swe/swe_petsc.c:762-780`: the friction term of the semi-implicit method. `Fx`, `Fy` are
the momentum flux divergences, `n` is Manning's coefficient. -/
noncomputable def frictionSemiImplicit (P : FlowParams) (dt n : ℝ) (q : Cons) (Fx Fy bx bY : ℝ) :
    Option (ℝ × ℝ) :=
  if q.h ≥ P.tinyH then
    let tb := P.g * (n * n) * q.h ^ (-(1 : ℝ) / 3) * √(q.hu / q.h * (q.hu / q.h) +
      q.hv / q.h * (q.hv / q.h)) / q.h
    if q.h = 0 ∨ 1 + dt * tb = 0 then none
    else some ((q.hu + dt * Fx - dt * bx) * (tb / (1 + dt * tb)),
      (q.hv + dt * Fy - dt * bY) * (tb / (1 + dt * tb)))
  else some (0, 0)

/-- `/repo/src/swe/swe_petsc.c:890` `lambda` -/
noncomputable def xqLambda (P : FlowParams) (n h mx my : ℝ) : ℝ :=
  P.g * (n * n) * h ^ (-(4 : ℝ) / 3) * √(mx / h * (mx / h) + my / h * (my / h))

/-- `/repo/src/swe/swe_petsc.c:892-901`: the discharge of equations 36 and 37 of Xia and Liang (2018). -/
noncomputable def xqDischarge (P : FlowParams) (dt n h mx my : ℝ) : Option (ℝ × ℝ) :=
  if dt * xqLambda P n h mx my < P.xqThreshold then some (mx, my)
  else if -2 * dt * xqLambda P n h mx my = 0 then none
  else some ((mx - mx * √(1 + 4 * dt * xqLambda P n h mx my)) / (-2 * dt * xqLambda P n h mx my),
    (my - my * √(1 + 4 * dt * xqLambda P n h mx my)) / (-2 * dt * xqLambda P n h mx my))

/-- `/repo/src/swe/swe_petsc.c:872-908`: the friction term of the implicit method XQ2018. -/
noncomputable def frictionXQ2018 (P : FlowParams) (dt n : ℝ) (q : Cons) (Fx Fy bx bY : ℝ) :
    Option (ℝ × ℝ) :=
  if q.h ≥ P.tinyH then
    if q.h = 0 then none
    else (xqDischarge P dt n q.h (q.hu + (Fx - bx) * dt) (q.hv + (Fy - bY) * dt)).map fun s =>
      (P.g * (n * n) * q.h ^ (-(7 : ℝ) / 3) * s.1 * √(s.1 * s.1 + s.2 * s.2),
       P.g * (n * n) * q.h ^ (-(7 : ℝ) / 3) * s.2 * √(s.1 * s.1 + s.2 * s.2))
  else some (0, 0)

/-- The two friction methods of the PETSc backend (`/repo/src/swe/swe_petsc.c:966-976`). -/
inductive FrictionMethod
  | semiImplicit
  | xq2018

/-- the friction term for the chosen method. `/repo/src/swe/swe_petsc.c:966-976`. -/
noncomputable def friction (P : FlowParams) (m : FrictionMethod) (dt n : ℝ) (q : Cons)
    (Fx Fy bx bY : ℝ) : Option (ℝ × ℝ) :=
  match m with
  | .semiImplicit => frictionSemiImplicit P dt n q Fx Fy bx bY
  | .xq2018 => frictionXQ2018 P dt n q Fx Fy bx bY

/-- `/repo/src/swe/swe_petsc.c:746-785` (and `:859-913`): one cell of the source operator. `fd` is the
copy of the flux divergence, `src` the external sources and `mann` Manning's coefficient (both by owned
number). -/
noncomputable def sourceCell (P : FlowParams) (m : FrictionMethod) (includeSlope : Bool) (pm : PMesh)
    (dt : ℝ) (src : ℕ → Flux) (mann : ℕ → ℝ) (fd : ℕ → Flux) (u : ℕ → Cons) (f : ℕ → Flux) (c : ℕ) :
    Option (ℕ → Flux) :=
  if pm.owned c then
    let b := bedTerm P includeSlope (pm.dzdx c) (pm.dzdy c) (u c).h
    (friction P m dt (mann (pm.l2o c)) (u c) (fd (pm.l2o c)).x (fd (pm.l2o c)).y b.1 b.2).map fun t =>
      addAt f (pm.l2o c)
        ⟨(src (pm.l2o c)).m, -b.1 - t.1 + (src (pm.l2o c)).x, -b.2 - t.2 + (src (pm.l2o c)).y⟩
  else some f

/-- `/repo/src/swe/swe_petsc.c:704-804`, `:816-932`: the source operators. -/
noncomputable def applySource (P : FlowParams) (m : FrictionMethod) (includeSlope : Bool) (pm : PMesh)
    (dt : ℝ) (src : ℕ → Flux) (mann : ℕ → ℝ) (fd : ℕ → Flux) (u : ℕ → Cons) (f : ℕ → Flux) :
    Option (ℕ → Flux) :=
  (List.range pm.numCells).foldlM (sourceCell P m includeSlope pm dt src mann fd u) f

/-! ### Hydrostatic reconstruction -/

/-- `/repo/src/swe/swe_petsc.c:1049-1063`: the reconstructed state of one side; `zmax` is the larger bed
elevation. -/
noncomputable def hrState (P : FlowParams) (z zmax : ℝ) (q : Cons) : Prim :=
  ⟨max 0 (q.h + z - zmax),
   if q.h > P.tinyH then q.hu * q.h / (q.h * q.h + P.hAnuga * P.hAnuga) else 0,
   if q.h > P.tinyH then q.hv * q.h / (q.h * q.h + P.hAnuga * P.hAnuga) else 0⟩

/-- `/repo/src/swe/swe_petsc.c:1112-1134`: the part of the Roe flux that is used (0 if both reconstructed
depths are dry). -/
noncomputable def hrFlux (P : FlowParams) (L R : Prim) (sn cn : ℝ) : Option Flux :=
  if L.h > P.tinyH ∨ R.h > P.tinyH then (roeFlux P.g L R sn cn).map Prod.fst else some ⟨0, 0, 0⟩

/-- `/repo/src/swe/swe_petsc.c:1139-1142`: the hydrostatic pressure correction. -/
noncomputable def hrCorrection (P : FlowParams) (h hrec sn cn : ℝ) : Flux :=
  ⟨0, 0.5 * P.g * (h * h - hrec * hrec) * cn, 0.5 * P.g * (h * h - hrec * hrec) * sn⟩

/-- `/repo/src/swe/swe_petsc.c:1034-1155`: one internal edge of `ApplyInteriorFluxHR`. -/
noncomputable def hrEdge (P : FlowParams) (pm : PMesh) (u : ℕ → Cons) (f : ℕ → Flux)
    (e : IEdge) : Option (ℕ → Flux) :=
  match e.right with
  | none => some f
  | some r =>
    if (u r).h < P.tinyH ∧ (u e.left).h < P.tinyH then some f
    else
      let zmax := max (pm.zc e.left) (pm.zc r)
      let L := hrState P (pm.zc e.left) zmax (u e.left)
      let R := hrState P (pm.zc r) zmax (u r)
      (hrFlux P L R e.sn e.cn).map fun F =>
        addBoth pm
          (addBoth pm f e.left r (F.smul (-e.len / pm.area e.left)) (F.smul (e.len / pm.area r)))
          e.left r
          ((hrCorrection P (u e.left).h L.h e.sn e.cn).smul (-e.len / pm.area e.left))
          ((hrCorrection P (u r).h R.h e.sn e.cn).smul (e.len / pm.area r))

/-- `/repo/src/swe/swe_petsc.c:1000-1161` `ApplyInteriorFluxHR`. -/
noncomputable def applyInteriorHR (P : FlowParams) (pm : PMesh) (u : ℕ → Cons) (f : ℕ → Flux) :
    Option (ℕ → Flux) :=
  pm.internal.foldlM (hrEdge P pm u) f

/-! ### The whole right-hand side -/

/-- `/repo/src/rdysetup.c:1120-1142` and `/repo/src/operator.c:656-672`: zero the vector, apply the flux
operators, copy the flux divergence, apply the source operator. `hr` selects hydrostatic
reconstruction (with which the bed slope is left out of the source, `swe_petsc.c:1245`). -/
noncomputable def rhs (P : FlowParams) (m : FrictionMethod) (hr : Bool) (pm : PMesh) (dt : ℝ)
    (src : ℕ → Flux) (mann : ℕ → ℝ) (u : ℕ → Cons) : Option (ℕ → Flux) :=
  (if hr then applyInteriorHR P pm u fun _ => Flux.zero
    else applyInterior P pm u fun _ => Flux.zero).bind fun f1 =>
  (applyBoundary P pm u f1).bind fun fd =>
  applySource P m (!hr) pm dt src mann fd u fd

/-! ### Second-order reconstruction -/

/-- An owned internal edge together with the states reconstructed on its two sides
(`q_reconstructed`, `/repo/src/swe/swe_petsc.c:139-150`). -/
structure REdge where
  left : ℕ
  right : ℕ
  len : ℝ
  sn : ℝ
  cn : ℝ
  qL : Cons
  qR : Cons

/-- `/repo/src/swe/swe_petsc.c:139-155`: the states of an edge, with depths cut off at 0. -/
noncomputable def rStates (P : FlowParams) (e : REdge) : Prim × Prim :=
  (velocities P.tinyH P.hAnuga ⟨max 0 e.qL.h, e.qL.hu, e.qL.hv⟩,
   velocities P.tinyH P.hAnuga ⟨max 0 e.qR.h, e.qR.hu, e.qR.hv⟩)

/-- `/repo/src/swe/swe_petsc.c:171-202`: one owned edge of `ApplyInteriorFlux2R`; it adds to both cells of
the *local* vector, owned or not. -/
noncomputable def interiorEdge2R (P : FlowParams) (area : ℕ → ℝ) (f : ℕ → Flux) (e : REdge) :
    Option (ℕ → Flux) :=
  (usedFlux P.g P.tinyH (rStates P e).1 (rStates P e).2 e.sn e.cn).map fun F =>
    addAt (addAt f e.left (F.smul (-e.len / area e.left))) e.right (F.smul (e.len / area e.right))

/-- `/repo/src/swe/swe_petsc.c:98-205` `ApplyInteriorFlux2R` up to the communication: the local vector of one
process. -/
noncomputable def applyInterior2R (P : FlowParams) (area : ℕ → ℝ) (es : List REdge) :
    Option (ℕ → Flux) :=
  es.foldlM (interiorEdge2R P area) fun _ => Flux.zero

end RDy
