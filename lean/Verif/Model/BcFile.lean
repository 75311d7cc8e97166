import Verif.Model.Forcing

/-!
Model of how a file of boundary values that are uniform in space is attached to the Dirichlet boundary on several processes
(`/repo/src/forcing/rdyforcing.c:16-77`, `:736-743`).
-/

namespace RDy

/-- A boundary as one process holds it: whether its flow condition is Dirichlet, and the number of its edges there (`/repo/src/rdydata.c:60-74`). The boundaries of a process are those face
sets of which it holds edges, and perhaps one for the other edges (`/repo/src/rdysetup.c:382-437`), so that positions differ between processes. -/
structure LocalBnd where
  dirichlet : Bool
  edges : ℕ

/-- `/repo/src/forcing/rdyforcing.c:32-42`: `dirc_bc_idx` of a process (see `findDirichlet`). -/
def dirBcIndex (p : List LocalBnd) : ℤ := (findDirichlet (p.map LocalBnd.dirichlet)).1

/-- `/repo/src/forcing/rdyforcing.c:37-38`: `multiple_dirc_bcs_present`. -/
def bcMultiple (p : List LocalBnd) : Bool := (findDirichlet (p.map LocalBnd.dirichlet)).2

/-- `/repo/src/forcing/rdyforcing.c:26`, `:40`: `num_edges_dirc_bc`, 0 if there is no Dirichlet boundary. -/
def bcEdges (p : List LocalBnd) : ℕ := if dirBcIndex p = -1 then 0 else ((p[(dirBcIndex p).toNat]?).map LocalBnd.edges).getD 0

/-- `/repo/src/forcing/rdyforcing.c:44`: `MPI_Allreduce` with `MPI_MAX` over the indices of all processes. -/
def bcGlobal (ps : List (List LocalBnd)) : ℤ := (ps.map dirBcIndex).foldl max (-1)

/-- `/repo/src/forcing/rdyforcing.c:62-71` on all processes: the index that every process keeps. Simplified: an error of one process ends the run. -/
def bcOpen (ps : List (List LocalBnd)) : Res ℤ :=
  if ps.any bcMultiple then .error
  else if bcGlobal ps > -1 then .ok (bcGlobal ps) else .error

/-- `/repo/src/forcing/rdyforcing.c:736-743` on one process, with index `g`, and the checks of `RDySetFlowDirichletBoundaryValues` (`/repo/src/rdydata.c:24-32`, `:76-84`, `:88-99`):
the position of the boundary that gets the values, `none` if nothing is done. -/
def bcApply (g : ℤ) (p : List LocalBnd) : Res (Option ℕ) :=
  if bcEdges p * 3 = 0 then .ok none
  else if ¬ (g < (p.length : ℤ)) ∨ g < 0 then .error
  else match p[g.toNat]? with
    | none => .ub
    | some b => if b.edges ≠ bcEdges p * 3 / 3 then .error else if b.dirichlet = false then .error else .ok (some g.toNat)

/-- The file is accepted (`/repo/src/forcing/rdyforcing.c:53-77`) and no process ends the run when the values are applied (`:736-743`). -/
def bcRuns (ps : List (List LocalBnd)) : Prop := ∃ g, bcOpen ps = .ok g ∧ ∀ p ∈ ps, ∃ o, bcApply g p = .ok o

/-- `/repo/src/forcing/rdyforcing.c:140-144` on one process, with index `g`: data that vary in space need the midpoints of the edges, and `RDyGetBoundaryEdgeXCentroids` checks index and
number of edges (`/repo/src/rdydata.c:408-413`, `:24-44`) but not the type: the position of the boundary whose edges are used, `none` if there are none. -/
def bcMidpoints (g : ℤ) (p : List LocalBnd) : Res (Option ℕ) :=
  if bcEdges p > 0 then
    if ¬ (g < (p.length : ℤ)) ∨ g < 0 then .error
    else match p[g.toNat]? with
      | none => .ub
      | some b => if b.edges ≠ bcEdges p then .error else .ok (some g.toNat)
  else .ok none

/-- The same for data that vary in space: the file is accepted (`/repo/src/forcing/rdyforcing.c:129-138`), the midpoints are found, and the values are applied (`:748-754`). -/
def bcRunsU (ps : List (List LocalBnd)) : Prop := ∃ g, bcOpen ps = .ok g ∧ (∀ p ∈ ps, ∃ o, bcMidpoints g p = .ok o) ∧ ∀ p ∈ ps, ∃ o, bcApply g p = .ok o

end RDy
