import Verif.Model.Operator

/-!
Model of the second-order (MUSCL) reconstruction: `/repo/src/operator_fluxes_ceed.c:884-1206` (shared by
both backends) and the choice of the limiter (`/repo/src/swe/swe_petsc.c:357-369`,
`/repo/src/operator.c:392-398`, `:552`).
-/

namespace RDy

/-! ### Least-squares gradients -/

/-- The cells and internal edges of one process as used for gradients (`/repo/include/private/rdymeshimpl.h:26-202`
`RDyCells`, `RDyEdges`): centroids, and the left and right cell of every internal edge. -/
structure LSMesh where
  x : ℕ → ℝ
  y : ℕ → ℝ
  edges : List (ℕ × ℕ)

/-- `a[c] += v`, as in `/repo/src/operator_fluxes_ceed.c:909` -/
def bump (a : ℕ → ℝ) (c : ℕ) (v : ℝ) : ℕ → ℝ := fun j => if j = c then a j + v else a j

/-- `/repo/src/operator_fluxes_ceed.c:903` `dx` of an edge -/
def lsDx (m : LSMesh) (e : ℕ × ℕ) : ℝ := m.x e.2 - m.x e.1

/-- `/repo/src/operator_fluxes_ceed.c:904` `dy` of an edge -/
def lsDy (m : LSMesh) (e : ℕ × ℕ) : ℝ := m.y e.2 - m.y e.1

/-- `/repo/src/operator_fluxes_ceed.c:905-906` `w` of an edge -/
noncomputable def lsW (m : LSMesh) (e : ℕ × ℕ) : ℝ :=
  if √(lsDx m e * lsDx m e + lsDy m e * lsDy m e) > 0 then
    1 / √(lsDx m e * lsDx m e + lsDy m e * lsDy m e) else 0

/-- One entry of the matrices of all cells, `/repo/src/operator_fluxes_ceed.c:898-916`: `v e` is what edge
`e` adds to the entry of both of its cells. -/
def lsAccumulate (m : LSMesh) (v : ℕ × ℕ → ℝ) : ℕ → ℝ :=
  m.edges.foldl (fun a e => bump (bump a e.1 (v e)) e.2 (v e)) fun _ => 0

/-- `m00` of every cell, `/repo/src/operator_fluxes_ceed.c:909`, `:913` -/
noncomputable def lsM00 (m : LSMesh) : ℕ → ℝ := lsAccumulate m fun e => lsW m e * lsDx m e * lsDx m e

/-- `m01` of every cell, `/repo/src/operator_fluxes_ceed.c:910`, `:914` -/
noncomputable def lsM01 (m : LSMesh) : ℕ → ℝ := lsAccumulate m fun e => lsW m e * lsDx m e * lsDy m e

/-- `m11` of every cell, `/repo/src/operator_fluxes_ceed.c:911`, `:915` -/
noncomputable def lsM11 (m : LSMesh) : ℕ → ℝ := lsAccumulate m fun e => lsW m e * lsDy m e * lsDy m e

/-- `/repo/src/operator_fluxes_ceed.c:927` `det` -/
noncomputable def lsDet (m : LSMesh) (c : ℕ) : ℝ := lsM00 m c * lsM11 m c - lsM01 m c * lsM01 m c

/-- `/repo/src/operator_fluxes_ceed.c:923-942`: the inverse matrix of a cell (entries 00, 01 = 10, 11), zero if
the determinant is small. -/
noncomputable def lsInv (m : LSMesh) (c : ℕ) : ℝ × ℝ × ℝ :=
  if |lsDet m c| < 1e-15 then (0, 0, 0)
  else (lsM11 m c * (1 / lsDet m c), -lsM01 m c * (1 / lsDet m c), lsM00 m c * (1 / lsDet m c))

/-- `/repo/src/operator_fluxes_ceed.c:956-976`: the coefficients of edge `e` for the gradient of its cell
`c` (`cx`, `cy`). -/
noncomputable def lsCoeff (m : LSMesh) (e : ℕ × ℕ) (c : ℕ) : ℝ × ℝ :=
  ((lsInv m c).1 * (lsW m e * lsDx m e) + (lsInv m c).2.1 * (lsW m e * lsDy m e),
   (lsInv m c).2.1 * (lsW m e * lsDx m e) + (lsInv m c).2.2 * (lsW m e * lsDy m e))

/-- `/repo/src/operator_fluxes_ceed.c:998-1039` `ComputeLeastSquaresGradients`: x component of the gradient of
one variable `q` in all cells. -/
noncomputable def lsGradX (m : LSMesh) (q : ℕ → ℝ) : ℕ → ℝ :=
  m.edges.foldl (fun g e =>
    bump (bump g e.1 ((lsCoeff m e e.1).1 * (q e.2 - q e.1))) e.2 ((lsCoeff m e e.2).1 * (q e.2 - q e.1)))
    fun _ => 0

/-- The y component of the gradient, `/repo/src/operator_fluxes_ceed.c:1024`, `:1031`. -/
noncomputable def lsGradY (m : LSMesh) (q : ℕ → ℝ) : ℕ → ℝ :=
  m.edges.foldl (fun g e =>
    bump (bump g e.1 ((lsCoeff m e e.1).2 * (q e.2 - q e.1))) e.2 ((lsCoeff m e e.2).2 * (q e.2 - q e.1)))
    fun _ => 0

/-! ### Limiters -/

/-- `/repo/src/operator_fluxes_ceed.c:1111-1114` `Minmod` -/
noncomputable def minmod (a b : ℝ) : ℝ := if a * b ≤ 0 then 0 else if |a| < |b| then a else b

/-- `/repo/src/operator_fluxes_ceed.c:1120-1123` `VanLeer` -/
noncomputable def vanLeer (a b : ℝ) : ℝ := if a * b ≤ 0 then 0 else 2 * a * b / (a + b)

/-- `/repo/include/private/rdyconfigimpl.h:67-71` `RDyLimiterType` -/
inductive Limiter
  | minmod
  | none
  | vanLeer
  deriving DecidableEq

/-- `/repo/src/operator_fluxes_ceed.c:1128-1138` `LimitSlope` -/
noncomputable def limitSlope (l : Limiter) (extrap halfDq : ℝ) : ℝ :=
  match l with
  | .none => extrap
  | .vanLeer => vanLeer extrap halfDq
  | .minmod => minmod extrap halfDq

/-- `/repo/src/operator_fluxes_ceed.c:1192-1196`: the value of one variable on the two sides of an edge, from
the cell values and the extrapolations. -/
noncomputable def faceValues (l : Limiter) (qL qR extrapL extrapR : ℝ) : ℝ × ℝ :=
  (qL + limitSlope l extrapL (0.5 * (qR - qL)), qR + limitSlope l extrapR (-0.5 * (qR - qL)))

/-- `/repo/src/operator_fluxes_ceed.c:1199-1200`: depths are cut off at 0. -/
noncomputable def faceDepths (l : Limiter) (hL hR extrapL extrapR : ℝ) : ℝ × ℝ :=
  (max 0 (faceValues l hL hR extrapL extrapR).1, max 0 (faceValues l hL hR extrapL extrapR).2)

/-- `/repo/src/operator_fluxes_ceed.c:1178-1188`: the extrapolation from cell `c` with the gradient `(gx, gy)`
to the midpoint `(mx, my)` of an edge. -/
def extrapolation (m : LSMesh) (c : ℕ) (gx gy mx my : ℝ) : ℝ := gx * (mx - m.x c) + gy * (my - m.y c)

/-- The local solution array `q` (or an array of gradients) by component, `/repo/src/operator_fluxes_ceed.c:998`. -/
structure CellField where
  h : ℕ → ℝ
  hu : ℕ → ℝ
  hv : ℕ → ℝ

/-- An internal edge as `ReconstructFaceValues` reads it: its cells, its end points, whether this process
owns it (`/repo/src/operator_fluxes_ceed.c:1165-1175`), and the geometry used by `ApplyInteriorFlux2R`
(`/repo/src/swe/swe_petsc.c:176-198`). -/
structure MEdge where
  left : ℕ
  right : ℕ
  x0 : ℝ
  y0 : ℝ
  x1 : ℝ
  y1 : ℝ
  owned : Bool
  len : ℝ
  sn : ℝ
  cn : ℝ

/-- `/repo/src/operator_fluxes_ceed.c:1186-1197` for one variable `q` with gradients `gx`, `gy`: the values on
both sides of an edge. -/
noncomputable def faceOf (l : Limiter) (m : LSMesh) (q gx gy : ℕ → ℝ) (e : MEdge) : ℝ × ℝ :=
  faceValues l (q e.left) (q e.right)
    (extrapolation m e.left (gx e.left) (gy e.left) (0.5 * (e.x0 + e.x1)) (0.5 * (e.y0 + e.y1)))
    (extrapolation m e.right (gx e.right) (gy e.right) (0.5 * (e.x0 + e.x1)) (0.5 * (e.y0 + e.y1)))

/-- `/repo/src/operator_fluxes_ceed.c:1168-1200`: the six values `q_face` of an edge. (The PETSc backend cuts off
the depths again, `/repo/src/swe/swe_petsc.c:143-148`: see `rStates`.) -/
noncomputable def reconstructEdge (l : Limiter) (m : LSMesh) (q : CellField) (g : CellField × CellField)
    (e : MEdge) : REdge where
  left := e.left
  right := e.right
  sn := e.sn
  cn := e.cn
  len := e.len
  qL := ⟨max 0 (faceOf l m q.h g.1.h g.2.h e).1, (faceOf l m q.hu g.1.hu g.2.hu e).1,
    (faceOf l m q.hv g.1.hv g.2.hv e).1⟩
  qR := ⟨max 0 (faceOf l m q.h g.1.h g.2.h e).2, (faceOf l m q.hu g.1.hu g.2.hu e).2,
    (faceOf l m q.hv g.1.hv g.2.hv e).2⟩

/-- The gradients of all three components, `/repo/src/operator_fluxes_ceed.c:998-1039`. -/
noncomputable def lsGradients (m : LSMesh) (q : CellField) : CellField × CellField :=
  (⟨lsGradX m q.h, lsGradX m q.hu, lsGradX m q.hv⟩, ⟨lsGradY m q.h, lsGradY m q.hu, lsGradY m q.hv⟩)

/-- `/repo/src/swe/swe_petsc.c:98-202` `ApplyInteriorFlux2R` on one process: gradients, reconstruction at the
owned internal edges, fluxes into the local vector. The gradients of ghost cells, which
`CommunicateCellGradients` (`:132`) overwrites with those of the owners, are the argument `ghost`, where
`own c` tells the cells of this process. -/
noncomputable def secondOrder (P : FlowParams) (l : Limiter) (m : LSMesh) (area : ℕ → ℝ)
    (own : ℕ → Bool) (ghost : CellField × CellField) (es : List MEdge) (q : CellField) :
    Option (ℕ → Flux) :=
  let g := lsGradients m q
  let pick (a b : ℕ → ℝ) : ℕ → ℝ := fun c => if own c then a c else b c
  let g' : CellField × CellField :=
    (⟨pick g.1.h ghost.1.h, pick g.1.hu ghost.1.hu, pick g.1.hv ghost.1.hv⟩,
     ⟨pick g.2.h ghost.2.h, pick g.2.hu ghost.2.hu, pick g.2.hv ghost.2.hv⟩)
  applyInterior2R P area ((es.filter MEdge.owned).map (reconstructEdge l m q g'))

/-! ### Choice of the limiter -/

/-- What the user can say about the limiter (`/repo/src/swe/swe_petsc.c:357-367`): `numerics.limiter`, `numerics.no_limiter`, and the options
`-no_limiter` and `-van_leer`. -/
structure LimiterSettings where
  yamlLimiter : Limiter
  yamlNoLimiter : Bool
  cliNoLimiter : Bool
  cliVanLeer : Bool

/-- `/repo/src/swe/swe_petsc.c:360-369`: the limiter of the PETSc backend. -/
def limiterPetsc (s : LimiterSettings) : Limiter :=
  let l := s.yamlLimiter
  let l := if s.yamlNoLimiter then Limiter.none else l
  let l := if s.cliNoLimiter then Limiter.none else l
  if s.cliVanLeer then Limiter.vanLeer else l

/-- `/repo/src/operator.c:393-398` and `:552`: the limiter of the CEED backend. -/
def limiterCeed (s : LimiterSettings) : Limiter :=
  let useLimiter := !s.yamlNoLimiter
  let useLimiter := if s.cliNoLimiter then false else useLimiter
  if useLimiter then Limiter.minmod else Limiter.none

end RDy
