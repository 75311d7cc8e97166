import Verif.Model.Muscl
import Verif.Model.Ceed

/-!
Model of second-order runs on several processes: exchange of the gradients of ghost cells
(`/repo/src/operator_fluxes_ceed.c:1057-1108`), interior fluxes of both backends from the reconstructed
states (`/repo/src/swe/swe_petsc.c:98-212`, `/repo/src/swe/swe_muscl_fluxes_ceed.h:43-96`), and the
right-hand side (`/repo/src/operator.c:541-600`, `:656-672`).
-/

namespace RDy

/-- One process of a second-order run: its mesh `pm` (of which `internal` is not used), the centroids of its
cells and its internal edges (`/repo/include/private/rdymeshimpl.h:26-202` `RDyCells`, `RDyEdges`). -/
structure MProc where
  pm : PMesh
  x : ℕ → ℝ
  y : ℕ → ℝ
  edges : List MEdge

/-- The cells and internal edges from which `/repo/src/operator_fluxes_ceed.c:884-1039` computes gradients. -/
def MProc.ls (a : MProc) : LSMesh := ⟨a.x, a.y, a.edges.map fun e => (e.left, e.right)⟩

/-- The local solution vector by component, `/repo/src/operator_fluxes_ceed.c:998`. -/
def fieldOf (u : ℕ → Cons) : CellField := ⟨fun c => (u c).h, fun c => (u c).hu, fun c => (u c).hv⟩

/-- `/repo/src/operator_fluxes_ceed.c:1083-1090`: what the processes write into the global vector, for one
component `v` of the gradients: each the values of its owned cells. The entry `local_to_owned[c]` of process
`p` is the one of the cell `gid p c`. -/
def gradWrites {n : ℕ} (pr : Fin n → MProc) (gid : Fin n → ℕ → ℕ) (v : Fin n → ℕ → ℝ) : List (ℕ × ℝ) :=
  (List.finRange n).flatMap fun p =>
    ((List.range (pr p).pm.numCells).filter (pr p).pm.owned).map fun c => (gid p c, v p c)

/-- `/repo/src/operator_fluxes_ceed.c:1080-1102`: the zeroed global vector is written, and `DMGlobalToLocal` gives
every local cell, owned or ghost, the entry of its cell. -/
def communicated {n : ℕ} (pr : Fin n → MProc) (gid : Fin n → ℕ → ℕ) (v : Fin n → ℕ → ℝ) (p : Fin n)
    (c : ℕ) : ℝ :=
  (gradWrites pr gid v).foldl (fun (g : ℕ → ℝ) w => Function.update g w.1 w.2) (fun _ => 0) (gid p c)

/-- `/repo/src/operator_fluxes_ceed.c:1057-1108` `CommunicateCellGradients` after
`ComputeLeastSquaresGradients` on every process; `u p` is the local solution of process `p`. -/
noncomputable def commGradients {n : ℕ} (pr : Fin n → MProc) (gid : Fin n → ℕ → ℕ) (u : Fin n → ℕ → Cons)
    (p : Fin n) : CellField × CellField :=
  (⟨communicated pr gid (fun p => lsGradX (pr p).ls (fieldOf (u p)).h) p,
    communicated pr gid (fun p => lsGradX (pr p).ls (fieldOf (u p)).hu) p,
    communicated pr gid (fun p => lsGradX (pr p).ls (fieldOf (u p)).hv) p⟩,
   ⟨communicated pr gid (fun p => lsGradY (pr p).ls (fieldOf (u p)).h) p,
    communicated pr gid (fun p => lsGradY (pr p).ls (fieldOf (u p)).hu) p,
    communicated pr gid (fun p => lsGradY (pr p).ls (fieldOf (u p)).hv) p⟩)

/-- `/repo/src/operator_fluxes_ceed.c:1153-1206` `ReconstructFaceValues` on process `p`: the owned internal edges
with the states on both sides. -/
noncomputable def faceStates {n : ℕ} (l : Limiter) (pr : Fin n → MProc) (gid : Fin n → ℕ → ℕ)
    (u : Fin n → ℕ → Cons) (p : Fin n) : List REdge :=
  ((pr p).edges.filter MEdge.owned).map
    (reconstructEdge l (pr p).ls (fieldOf (u p)) (commGradients pr gid u p))

/-! ### PETSc -/

/-- `/repo/src/swe/swe_petsc.c:98-202` `ApplyInteriorFlux2R` on process `p`, up to `DMLocalToGlobal`: the local
vector. -/
noncomputable def interior2R {n : ℕ} (P : FlowParams) (l : Limiter) (pr : Fin n → MProc)
    (gid : Fin n → ℕ → ℕ) (u : Fin n → ℕ → Cons) (p : Fin n) : Option (ℕ → Flux) :=
  applyInterior2R P (pr p).pm.area (faceStates l pr gid u p)

/-- The sum over all processes of the local entries of the global cell `γ`: `DMLocalToGlobal` with
`ADD_VALUES`, `/repo/src/swe/swe_petsc.c:207`, `/repo/src/operator.c:594`. -/
noncomputable def addedUp {n : ℕ} (pr : Fin n → MProc) (gid : Fin n → ℕ → ℕ) (f : Fin n → ℕ → Flux)
    (γ : ℕ) : Flux :=
  ⟨∑ p, ∑ i ∈ Finset.range (pr p).pm.numCells, if gid p i = γ then (f p i).m else 0,
   ∑ p, ∑ i ∈ Finset.range (pr p).pm.numCells, if gid p i = γ then (f p i).x else 0,
   ∑ p, ∑ i ∈ Finset.range (pr p).pm.numCells, if gid p i = γ then (f p i).y else 0⟩

/-- The part of the global vector that process `p` holds, `/repo/src/swe/swe_petsc.c:207`: at place `i` the entry
of the owned cell with `local_to_owned[c] = i`. -/
noncomputable def globalPart {n : ℕ} (pr : Fin n → MProc) (gid : Fin n → ℕ → ℕ) (f : Fin n → ℕ → Flux)
    (p : Fin n) (i : ℕ) : Flux :=
  match (List.range (pr p).pm.numCells).find? fun c => (pr p).pm.owned c && ((pr p).pm.l2o c == i) with
  | some c => addedUp pr gid f (gid p c)
  | none => Flux.zero

/-- `/repo/src/operator.c:656-672` with `ApplyInteriorFlux2R`: `f1` are the local vectors of the interior
fluxes; the boundary fluxes and the sources are those of first-order runs (bed slope included). -/
noncomputable def rhs2R {n : ℕ} (P : FlowParams) (m : FrictionMethod) (pr : Fin n → MProc)
    (gid : Fin n → ℕ → ℕ) (dt : ℝ) (src : Fin n → ℕ → Flux) (mann : Fin n → ℕ → ℝ)
    (u : Fin n → ℕ → Cons) (f1 : Fin n → ℕ → Flux) (p : Fin n) : Option (ℕ → Flux) :=
  (applyBoundary P (pr p).pm (u p) (globalPart pr gid f1 p)).bind fun fd =>
    applySource P m true (pr p).pm dt (src p) (mann p) fd (u p) fd

/-! ### CEED -/

/-- `/repo/src/swe/swe_muscl_fluxes_ceed.h:64-92` for one edge, and the places of its results
(`/repo/src/operator_fluxes_ceed.c:1303-1330`). Without the
BS2002 scheme the elevations at vertices stay the bed elevations, so that `dhv` is 0; runs with it are not
modelled here. -/
noncomputable def ceedEdge2R (P : FlowParams) (pm : PMesh) (f : ℕ → Flux) (e : REdge) :
    Option (ℕ → Flux) :=
  (edgeFluxCeed P.g P.tinyH P.hAnuga ⟨max 0 e.qL.h, e.qL.hu, e.qL.hv⟩ ⟨max 0 e.qR.h, e.qR.hu, e.qR.hv⟩
    e.sn e.cn 0).map fun F =>
      addAt (addAt f (pm.l2o e.left) (F.1.smul (-e.len / pm.area e.left))) (pm.l2o e.right)
        (F.1.smul (e.len / pm.area e.right))

/-- `/repo/src/operator.c:541-588` on process `p`, up to `DMLocalToGlobal`: the MUSCL interior operator, then the
boundary operators (first order), into the zeroed local vector. -/
noncomputable def ceedDivergence2R {n : ℕ} (P : FlowParams) (l : Limiter) (pr : Fin n → MProc)
    (gid : Fin n → ℕ → ℕ) (u : Fin n → ℕ → Cons) (p : Fin n) : Option (ℕ → Flux) :=
  ((faceStates l pr gid u p).foldlM (ceedEdge2R P (pr p).pm) fun _ => Flux.zero).bind fun f1 =>
    (pr p).pm.boundary.foldlM (ceedBEdge P (pr p).pm (u p)) f1

/-! ### The warning about degenerate cells -/

/-- `/repo/src/operator_fluxes_ceed.c:922-948`: the number in the warning of `PrecomputeLSGradCoeffs`; no warning
is printed if it is 0. -/
noncomputable def degenerateCount {n : ℕ} (pr : Fin n → MProc) : ℕ :=
  ∑ p, ((List.range (pr p).pm.numCells).map fun c => if |lsDet (pr p).ls c| < 1e-15 then 1 else 0).sum

end RDy
