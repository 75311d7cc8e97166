import Verif.Model.Batched
import Verif.Model.SecondOrder

/-!
Model of the second-order interior operator of the PETSc backend as it is written: flat arrays for matrices, coefficients and
gradients (`/repo/src/operator_fluxes_ceed.c:884-1108`), and arrays packed in the order of *owned* internal edges, with a counter that
is advanced in every one of the loops that use them (`/repo/src/operator_fluxes_ceed.c:1153-1206`, `/repo/src/swe/swe_petsc.c:98-212`,
`:341-407`). The models of `Muscl.lean` and `SecondOrder.lean` treat one edge after the other instead, without any memory.

As in `Batched.lean`, an access outside an array is undefined (`none`), and a result that may be NaN is an `Option ℝ`. Courant
numbers are left out, see `Courant.lean`.
-/

namespace RDy

/-! ### Arrays -/

/-- `a[i] += v`; undefined outside the array. `/repo/src/operator_fluxes_ceed.c:909`. -/
def Arr.bump (a : Arr ℝ) (i : ℕ) (v : ℝ) : Option (Arr ℝ) := (a.get i).bind fun x => a.put i (x + v)

/-- `PetscArrayzero(a, n)`; undefined if the array is shorter. `/repo/src/operator_fluxes_ceed.c:1004-1006`. -/
def Arr.zeroFirst (a : Arr ℝ) (n : ℕ) : Option (Arr ℝ) :=
  if n ≤ a.len then some ⟨a.len, fun i => if i < n then 0 else a.val i⟩ else none

/-- The tables that the second-order operator reads besides those of `Tables`: `vertex_ids` (two for each edge), coordinates of vertices
and centroids of cells. `/repo/include/private/rdymeshimpl.h:26-202`. -/
structure GTables where
  T : Tables
  vertexIds : Arr ℕ
  points : Arr (ℝ × ℝ)
  centroids : Arr (ℝ × ℝ)

/-- The two cells of internal edge `ie`: `internal_edge_ids[ie]`, then `cell_ids[2 * e]` and `cell_ids[2 * e + 1]`, both used as
indices. `/repo/src/operator_fluxes_ceed.c:899-901`. -/
def cellsOfEdge (T : Tables) (ie : ℕ) : Option (ℕ × ℕ) :=
  (T.internal.get ie).bind fun e =>
  (T.cellIds.get (2 * e)).bind fun l => (T.cellIds.get (2 * e + 1)).bind fun r =>
  (asIndex l).bind fun l' => (asIndex r).map fun r' => (l', r')

/-! ### The number of owned internal edges -/

/-- `/repo/src/rdymesh.c:592-605`: `num_owned_internal_edges` counts, over all `ne` edges, those with a second cell that the process owns (the
check of the first cell at `:595` is left out; valid tables pass it). -/
def countOwnedInternal (T : Tables) (ne : ℕ) : Option ℕ :=
  loopM (fun (n : ℕ) (e : ℕ) =>
    (T.cellIds.get (2 * e + 1)).bind fun r =>
      if r ≥ 0 then (T.edgeOwned.get e).map fun w => if w then n + 1 else n else some n) ne 0

/-- `/repo/src/rdymesh.c:692-711`: `internal_edge_ids` lists the edges with two cells in the order of their numbers (the list of
boundary edges is left out). -/
def listInternal (T : Tables) (ne : ℕ) : Option (List ℕ) :=
  loopM (fun (ids : List ℕ) (e : ℕ) =>
    (T.cellIds.get (2 * e)).bind fun l => (T.cellIds.get (2 * e + 1)).bind fun r =>
      some (if r ≥ 0 ∧ l ≥ 0 then ids ++ [e] else ids)) ne []

/-! ### Coefficients of the gradients -/

/-- `dx`, `dy` and `w` of an edge, `/repo/src/operator_fluxes_ceed.c:903-906` (and `:961-964`). -/
noncomputable def lsWeights (G : GTables) (c : ℕ × ℕ) : Option (ℝ × ℝ × ℝ) :=
  (G.centroids.get c.2).bind fun r => (G.centroids.get c.1).map fun l =>
    (r.1 - l.1, r.2 - l.2,
      if √((r.1 - l.1) * (r.1 - l.1) + (r.2 - l.2) * (r.2 - l.2)) > 0 then
        1 / √((r.1 - l.1) * (r.1 - l.1) + (r.2 - l.2) * (r.2 - l.2)) else 0)

/-- `/repo/src/operator_fluxes_ceed.c:909-911` (and `:913-915`): the three entries of one cell. -/
noncomputable def addMatrix (w : ℝ × ℝ × ℝ) (c : ℕ) (M : Arr ℝ) : Option (Arr ℝ) :=
  (M.bump (c * 3 + 0) (w.2.2 * w.1 * w.1)).bind fun M1 =>
  (M1.bump (c * 3 + 1) (w.2.2 * w.1 * w.2.1)).bind fun M2 => M2.bump (c * 3 + 2) (w.2.2 * w.2.1 * w.2.1)

/-- `/repo/src/operator_fluxes_ceed.c:898-916`: one edge of the first pass. -/
noncomputable def lsMatrixStep (G : GTables) (M : Arr ℝ) (ie : ℕ) : Option (Arr ℝ) :=
  (cellsOfEdge G.T ie).bind fun c => (lsWeights G c).bind fun w => (addMatrix w c.1 M).bind (addMatrix w c.2)

/-- four assignments `a[i * 4 + 0] = …; …; a[i * 4 + 3] = …;`, `/repo/src/operator_fluxes_ceed.c:930-941` -/
def putFour (a : Arr ℝ) (i : ℕ) (v : ℕ → ℝ) : Option (Arr ℝ) :=
  loopM (fun (a : Arr ℝ) (k : ℕ) => a.put (i * 4 + k) (v k)) 4 a

/-- `/repo/src/operator_fluxes_ceed.c:923-942`: the inverse matrix of one cell (the count of degenerate cells is
`degenerateCount` of `SecondOrder.lean`). -/
noncomputable def inverseStep (M : Arr ℝ) (inv : Arr ℝ) (c : ℕ) : Option (Arr ℝ) :=
  (M.get (c * 3 + 0)).bind fun m00 => (M.get (c * 3 + 1)).bind fun m01 => (M.get (c * 3 + 2)).bind fun m11 =>
    if |m00 * m11 - m01 * m01| < 1e-15 then putFour inv c fun _ => 0
    else putFour inv c fun k =>
      if k = 0 then m11 * (1 / (m00 * m11 - m01 * m01))
      else if k = 1 then -m01 * (1 / (m00 * m11 - m01 * m01))
      else if k = 2 then -m01 * (1 / (m00 * m11 - m01 * m01))
      else m00 * (1 / (m00 * m11 - m01 * m01))

/-- `inv_m[c * 4 + a] * wdx + inv_m[c * 4 + b] * wdy`, `/repo/src/operator_fluxes_ceed.c:970-975` -/
noncomputable def lsProduct (inv : Arr ℝ) (w : ℝ × ℝ × ℝ) (c a b : ℕ) : Option ℝ :=
  (inv.get (c * 4 + a)).bind fun x => (inv.get (c * 4 + b)).map fun y => x * (w.2.2 * w.1) + y * (w.2.2 * w.2.1)

/-- `/repo/src/operator_fluxes_ceed.c:956-976`: one edge of the second pass. -/
noncomputable def coeffStep (G : GTables) (inv : Arr ℝ) (co : Arr ℝ) (ie : ℕ) : Option (Arr ℝ) :=
  (cellsOfEdge G.T ie).bind fun c => (lsWeights G c).bind fun w =>
  (lsProduct inv w c.1 0 1).bind fun v0 => (lsProduct inv w c.1 2 3).bind fun v1 =>
  (lsProduct inv w c.2 0 1).bind fun v2 => (lsProduct inv w c.2 2 3).bind fun v3 =>
    putFour co ie fun k => if k = 0 then v0 else if k = 1 then v1 else if k = 2 then v2 else v3

/-- `/repo/src/operator_fluxes_ceed.c:884-980` `PrecomputeLSGradCoeffs` for `nc` local cells. -/
noncomputable def coeffsB (G : GTables) (nc : ℕ) (co : Arr ℝ) : Option (Arr ℝ) :=
  (loopM (lsMatrixStep G) G.T.internal.len (Arr.calloc (nc * 3) 0)).bind fun M =>
  (loopM (inverseStep M) nc (Arr.calloc (nc * 4) 0)).bind fun inv =>
    loopM (coeffStep G inv) G.T.internal.len co

/-! ### Memory of the operator -/

/-- What the operator keeps besides the arrays of the Riemann solver: `ls_grad_coeffs`, the three arrays of gradients (0 for `grad_h`, 1 for
`grad_hu`, 2 for `grad_hv`, the order of `grads` at `/repo/src/operator_fluxes_ceed.c:1061`), and `q_reconstructed`.
`/repo/src/swe/swe_petsc.c:79-94`. -/
structure Packed where
  batch : Batch
  coeffs : Arr ℝ
  grad : ℕ → Arr ℝ
  qFace : Arr ℝ

/-- `/repo/src/swe/swe_petsc.c:390-397`: one edge of the loop that copies the normals; the first component is `owned_e`. -/
def packedNormalStep (T : Tables) (s : ℕ × Batch) (e : ℕ) : Option (ℕ × Batch) :=
  (T.internal.get e).bind fun id => (T.edgeOwned.get id).bind fun w =>
    if w then
      (T.cn.get id).bind fun c => (s.2.cn.put s.1 c).bind fun cn' =>
      (T.sn.get id).bind fun sn => (s.2.sn.put s.1 sn).map fun sn' => (s.1 + 1, { s.2 with cn := cn', sn := sn' })
    else some s

/-- `/repo/src/swe/swe_petsc.c:341-407` `CreatePetscSWEInteriorFluxOperator` with `second_order`, for `nc` local cells and
`no` owned internal edges. The choice of the limiter is `limiterPetsc` of `Muscl.lean`. -/
noncomputable def createPacked (G : GTables) (nc no : ℕ) : Option Packed :=
  (coeffsB G nc (Arr.calloc (G.T.internal.len * 4) 0)).bind fun co =>
  (loopM (packedNormalStep G.T) G.T.internal.len (0, Batch.create no)).map fun b =>
    ⟨b.2, co, fun _ => Arr.calloc (nc * 2) 0, Arr.calloc (no * 6) 0⟩

/-! ### Gradients -/

/-- `dq` of component `k`, `/repo/src/operator_fluxes_ceed.c:1019-1021` (and `:1192`). -/
def jumpB (q : Arr ℝ) (c : ℕ × ℕ) (k : ℕ) : Option ℝ :=
  (q.get (c.2 * 3 + k)).bind fun r => (q.get (c.1 * 3 + k)).map fun l => r - l

/-- `/repo/src/operator_fluxes_ceed.c:1008-1036`: one edge, for the array of component `k`. (The code treats the three arrays in one pass;
they do not overlap, so that the order of additions in each is this one.) -/
def gradStep (T : Tables) (co q : Arr ℝ) (k : ℕ) (g : Arr ℝ) (ie : ℕ) : Option (Arr ℝ) :=
  (cellsOfEdge T ie).bind fun c =>
  (co.get (ie * 4 + 0)).bind fun a => (co.get (ie * 4 + 1)).bind fun b =>
  (co.get (ie * 4 + 2)).bind fun a' => (co.get (ie * 4 + 3)).bind fun b' => (jumpB q c k).bind fun d =>
  (g.bump (c.1 * 2 + 0) (a * d)).bind fun g1 => (g1.bump (c.1 * 2 + 1) (b * d)).bind fun g2 =>
  (g2.bump (c.2 * 2 + 0) (a' * d)).bind fun g3 => g3.bump (c.2 * 2 + 1) (b' * d)

/-- `/repo/src/operator_fluxes_ceed.c:998-1039` `ComputeLeastSquaresGradients`, the array of component `k`. -/
def gradientB (T : Tables) (nc : ℕ) (co q : Arr ℝ) (k : ℕ) (g : Arr ℝ) : Option (Arr ℝ) :=
  (g.zeroFirst (nc * 2)).bind fun g0 => loopM (gradStep T co q k) T.internal.len g0

/-- the three arrays of gradients, `/repo/src/operator_fluxes_ceed.c:998-1039` -/
def gradientsB (T : Tables) (nc : ℕ) (co q : Arr ℝ) (g : ℕ → Arr ℝ) : Option (ℕ → Arr ℝ) :=
  (gradientB T nc co q 0 (g 0)).bind fun g0 => (gradientB T nc co q 1 (g 1)).bind fun g1 =>
  (gradientB T nc co q 2 (g 2)).map fun g2 => fun k => if k = 0 then g0 else if k = 1 then g1 else g2

/-! ### Exchange of the gradients -/

/-- `/repo/src/operator_fluxes_ceed.c:1083-1090`: one cell written into the global vector, direction `k`. -/
def packStep (T : Tables) (g : ℕ → Arr ℝ) (k : ℕ) (v : Arr ℝ) (c : ℕ) : Option (Arr ℝ) :=
  (T.owned.get c).bind fun w =>
    if w then (T.l2o.get c).bind fun o =>
      loopM (fun (v : Arr ℝ) (i : ℕ) => ((g i).get (c * 2 + k)).bind fun x => v.put (3 * o + i) x) 3 v
    else some v

/-- `/repo/src/operator_fluxes_ceed.c:1080-1091`: the part of the global vector of a process with `nc` local and `n` owned cells. -/
def packB (T : Tables) (nc n : ℕ) (g : ℕ → Arr ℝ) (k : ℕ) : Option (Arr ℝ) :=
  loopM (packStep T g k) nc (Arr.calloc (3 * n) 0)

/-- `/repo/src/operator_fluxes_ceed.c:1098-1102`: one cell read from the local vector, for the array of component `i`. -/
def unpackStep (v : Arr ℝ) (k i : ℕ) (g : Arr ℝ) (c : ℕ) : Option (Arr ℝ) :=
  (v.get (3 * c + i)).bind fun x => g.put (c * 2 + k) x

/-- `/repo/src/operator_fluxes_ceed.c:1096-1103`: the three arrays after the pass of direction `k`. -/
def unpackB (v : Arr ℝ) (nc k : ℕ) (g : ℕ → Arr ℝ) : Option (ℕ → Arr ℝ) :=
  (loopM (unpackStep v k 0) nc (g 0)).bind fun g0 => (loopM (unpackStep v k 1) nc (g 1)).bind fun g1 =>
  (loopM (unpackStep v k 2) nc (g 2)).map fun g2 => fun i => if i = 0 then g0 else if i = 1 then g1 else g2

/-- What is known of a process besides its tables: number of local, owned cells and owned internal edges
(`/repo/include/private/rdymeshimpl.h:204-240`). -/
structure PProc where
  G : GTables
  nc : ℕ
  n : ℕ
  no : ℕ

/-- `DMGlobalToLocal` with block size 3: cell `c` of process `p` receives the block of the process and place that `root p c` names (contract
of PETSc's star forests, `/repo/src/operator_fluxes_ceed.c:1093`). -/
def toLocal {n : ℕ} (root : Fin n → ℕ → Fin n × ℕ) (g : Fin n → Arr ℝ) (p : Fin n) (nc : ℕ) : Arr ℝ :=
  ⟨3 * nc, fun j => (g (root p (j / 3)).1).val (3 * (root p (j / 3)).2 + j % 3)⟩

/-- all of `f p`, if they are all defined (the processes run side by side), `/repo/src/operator_fluxes_ceed.c:1057-1108` -/
noncomputable def allProcs {n : ℕ} {α : Type} (f : Fin n → Option α) : Option (Fin n → α) :=
  open Classical in
  if h : ∀ p, (f p).isSome = true then some fun p => (f p).get (h p) else none

/-- `/repo/src/operator_fluxes_ceed.c:1077-1104`: the pass of direction `k` on all processes. -/
noncomputable def exchangePass {n : ℕ} (pr : Fin n → PProc) (root : Fin n → ℕ → Fin n × ℕ) (k : ℕ) (g : Fin n → ℕ → Arr ℝ) :
    Option (Fin n → ℕ → Arr ℝ) :=
  (allProcs fun p => packB (pr p).G.T (pr p).nc (pr p).n (g p) k).bind fun v =>
    allProcs fun p => unpackB (toLocal root v p (pr p).nc) (pr p).nc k (g p)

/-- `/repo/src/operator_fluxes_ceed.c:1057-1108` `CommunicateCellGradients` on all processes. -/
noncomputable def exchangeB {n : ℕ} (pr : Fin n → PProc) (root : Fin n → ℕ → Fin n × ℕ) (g : Fin n → ℕ → Arr ℝ) :
    Option (Fin n → ℕ → Arr ℝ) :=
  (exchangePass pr root 0 g).bind (exchangePass pr root 1)

/-! ### Reconstruction -/

/-- The midpoint of an edge, `/repo/src/operator_fluxes_ceed.c:1172-1175`. -/
noncomputable def midpointB (G : GTables) (e : ℕ) : Option (ℝ × ℝ) :=
  (G.vertexIds.get (2 * e)).bind fun v0 => (G.vertexIds.get (2 * e + 1)).bind fun v1 =>
  (G.points.get v0).bind fun a => (G.points.get v1).map fun b => (0.5 * (a.1 + b.1), 0.5 * (a.2 + b.2))

/-- `grads[k][c * 2 + 0] * dx + grads[k][c * 2 + 1] * dy`, `/repo/src/operator_fluxes_ceed.c:1178-1181`, `:1187-1188` -/
noncomputable def extrapB (G : GTables) (g : Arr ℝ) (c : ℕ) (m : ℝ × ℝ) : Option ℝ :=
  (G.centroids.get c).bind fun x => (g.get (c * 2 + 0)).bind fun a => (g.get (c * 2 + 1)).map fun b =>
    a * (m.1 - x.1) + b * (m.2 - x.2)

/-- `/repo/src/operator_fluxes_ceed.c:1186-1197`: component `k` of edge number `oe` in packed order. -/
noncomputable def faceStep (l : Limiter) (G : GTables) (q : Arr ℝ) (g : ℕ → Arr ℝ) (c : ℕ × ℕ) (m : ℝ × ℝ) (oe : ℕ)
    (f : Arr ℝ) (k : ℕ) : Option (Arr ℝ) :=
  (extrapB G (g k) c.1 m).bind fun xl => (extrapB G (g k) c.2 m).bind fun xr => (jumpB q c k).bind fun dq =>
  (q.get (c.1 * 3 + k)).bind fun ql => (q.get (c.2 * 3 + k)).bind fun qr =>
  (f.put (oe * 6 + k) (ql + limitSlope l xl (0.5 * dq))).bind fun f1 =>
    f1.put (oe * 6 + 3 + k) (qr + limitSlope l xr (-0.5 * dq))

/-- `q_face[i] = PetscMax(0.0, q_face[i])`, `/repo/src/operator_fluxes_ceed.c:1199-1200` -/
noncomputable def clampB (f : Arr ℝ) (i : ℕ) : Option (Arr ℝ) := (f.get i).bind fun x => f.put i (max 0 x)

/-- `/repo/src/operator_fluxes_ceed.c:1164-1203`: one edge; the first component is `owned_edge`. -/
noncomputable def reconStep (l : Limiter) (G : GTables) (q : Arr ℝ) (g : ℕ → Arr ℝ) (s : ℕ × Arr ℝ) (ie : ℕ) :
    Option (ℕ × Arr ℝ) :=
  (G.T.internal.get ie).bind fun e => (G.T.edgeOwned.get e).bind fun w =>
    if w then
      (cellsOfEdge G.T ie).bind fun c => (midpointB G e).bind fun m =>
      (loopM (faceStep l G q g c m s.1) 3 s.2).bind fun f =>
      (clampB f (s.1 * 6 + 0)).bind fun f1 => (clampB f1 (s.1 * 6 + 3)).map fun f2 => (s.1 + 1, f2)
    else some s

/-- `/repo/src/operator_fluxes_ceed.c:1153-1206` `ReconstructFaceValues` -/
noncomputable def reconstructB (l : Limiter) (G : GTables) (q : Arr ℝ) (g : ℕ → Arr ℝ) (f : Arr ℝ) : Option (Arr ℝ) :=
  (loopM (reconStep l G q g) G.T.internal.len (0, f)).map Prod.snd

/-! ### Fluxes -/

/-- `/repo/src/swe/swe_petsc.c:143-148`: three values of `q_reconstructed`, from place `i` on, into entry `e` of the states, the depth cut
off at 0. -/
noncomputable def putFace (a : Arr RState) (e : ℕ) (q : Arr ℝ) (i : ℕ) : Option (Arr RState) :=
  (q.get (i + 0)).bind fun h => (q.get (i + 1)).bind fun hu => (q.get (i + 2)).bind fun hv =>
    (a.get e).bind fun s => a.put e ⟨max 0 h, hu, hv, s.u, s.v⟩

/-- `/repo/src/swe/swe_petsc.c:139-150`: one edge of the loop that gathers the states; the first component is `owned_e`. -/
noncomputable def packedGatherStep (T : Tables) (q : Arr ℝ) (s : ℕ × Batch) (e : ℕ) : Option (ℕ × Batch) :=
  (T.internal.get e).bind fun id => (T.edgeOwned.get id).bind fun w =>
    if w then
      (putFace s.2.left s.1 q (s.1 * 6)).bind fun L => (putFace s.2.right s.1 q (s.1 * 6 + 3)).map fun R =>
        (s.1 + 1, { s.2 with left := L, right := R })
    else some s

/-- `/repo/src/swe/swe_petsc.c:197-200`: both cells of the local vector receive the flux of a wet edge, component by component. -/
noncomputable def addToBoth (T : Tables) (flux : Arr Num) (oe id l r : ℕ) (f : Arr Num) : Option (Arr Num) :=
  (T.elen.get id).bind fun len => (T.area.get l).bind fun al => (T.area.get r).bind fun ar =>
    loopM (fun (f : Arr Num) (i : ℕ) =>
      (addEntry 3 flux oe l (-len / al) i f).bind (addEntry 3 flux oe r (len / ar) i)) 3 f

/-- `/repo/src/swe/swe_petsc.c:171-203`: one edge of the loop that adds the fluxes; the first component is `owned_e`. -/
noncomputable def packedAddStep (P : FlowParams) (T : Tables) (b : Batch) (s : ℕ × Arr Num) (e : ℕ) : Option (ℕ × Arr Num) :=
  (T.internal.get e).bind fun id => (T.edgeOwned.get id).bind fun w =>
    if w then
      (cellsOfEdge T e).bind fun c => (T.elen.get id).bind fun _ =>
      (b.left.get s.1).bind fun L => (b.right.get s.1).bind fun R =>
        if ¬ (R.h < P.tinyH ∧ L.h < P.tinyH) then
          (addToBoth T b.flux s.1 id c.1 c.2 s.2).map fun f => (s.1 + 1, f)
        else some (s.1 + 1, s.2)
    else some s

/-- `/repo/src/swe/swe_petsc.c:134-203`: what follows the exchange on one process: what is kept, and `rhs_local`, which was zeroed. -/
noncomputable def packedFluxes (P : FlowParams) (l : Limiter) (a : PProc) (M : Packed) (g : ℕ → Arr ℝ) (u : Arr ℝ) :
    Option (Packed × Arr Num) :=
  (reconstructB l a.G u g M.qFace).bind fun q =>
  (loopM (packedGatherStep a.G.T q) a.G.T.internal.len (0, M.batch)).bind fun b1 =>
  (velocitiesB P.tinyH P.hAnuga b1.2.left).bind fun L =>
  (velocitiesB P.tinyH P.hAnuga b1.2.right).bind fun R =>
  (roeB P.g L R b1.2.sn b1.2.cn b1.2.flux).bind fun F =>
  (loopM (packedAddStep P a.G.T ⟨L, R, b1.2.sn, b1.2.cn, F⟩) a.G.T.internal.len (0, Arr.calloc (3 * a.nc) (some 0))).map fun f =>
    (⟨⟨L, R, b1.2.sn, b1.2.cn, F⟩, M.coeffs, g, q⟩, f.2)

/-- `/repo/src/swe/swe_petsc.c:98-204` `ApplyInteriorFlux2R` on all processes, up to `DMLocalToGlobal` (`:207`, `globalPart` of
`SecondOrder.lean`): what each process keeps, and its local vector. -/
noncomputable def applyPacked {n : ℕ} (P : FlowParams) (l : Limiter) (pr : Fin n → PProc) (root : Fin n → ℕ → Fin n × ℕ)
    (M : Fin n → Packed) (u : Fin n → Arr ℝ) : Option (Fin n → Packed × Arr Num) :=
  (allProcs fun p => gradientsB (pr p).G.T (pr p).nc (M p).coeffs (u p) (M p).grad).bind fun g =>
  (exchangeB pr root g).bind fun g' =>
    allProcs fun p => packedFluxes P l (pr p) (M p) (g' p) (u p)

/-- A sequence of evaluations: the local vectors of each. `/repo/src/rdysetup.c:1120-1142`. -/
noncomputable def packedEvaluations {n : ℕ} (P : FlowParams) (l : Limiter) (pr : Fin n → PProc) (root : Fin n → ℕ → Fin n × ℕ) :
    (Fin n → Packed) → List (Fin n → Arr ℝ) → Option ((Fin n → Packed) × List (Fin n → Arr Num))
  | M, [] => some (M, [])
  | M, u :: rest =>
    (applyPacked P l pr root M u).bind fun r =>
      (packedEvaluations P l pr root (fun p => (r p).1) rest).map fun q => (q.1, (fun p => (r p).2) :: q.2)

end RDy
