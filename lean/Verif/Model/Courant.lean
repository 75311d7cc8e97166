import Mathlib.Data.Real.Basic

/-!
Model of the Courant-number diagnostics (`/repo/src/operator.c:688-884`, the flux loops of
`/repo/src/swe/swe_petsc.c` and `/repo/src/tracer/tracer_petsc.c`).
-/

namespace RDy

/-- `/repo/include/private/rdyoperatorimpl.h:21-25` `CourantNumberDiagnostics`. -/
structure Courant where
  num : ℝ
  edge : ℤ
  cell : ℤ

/-- `/repo/src/operator.c:757-768` `ResetOperatorDiagnostics`. -/
def courantReset : Courant := ⟨0, -1, -1⟩

/-- An edge visited by the flux loops on a process: is at least one side wet, the wave speed
returned by the Riemann solver, length, the area and global ID of its left cell and, for interior
edges, of its right cell, and its global ID. `/repo/src/swe/swe_petsc.c:280-297`. -/
structure CEdge where
  wet : Bool
  amax : ℝ
  len : ℝ
  areaL : ℝ
  cellL : ℤ
  right : Option (ℝ × ℤ)
  gid : ℤ

/-- The Courant number of an edge: `/repo/src/swe/swe_petsc.c:290` (interior, `fmin` of the areas),
`:598` (boundary). -/
noncomputable def CEdge.cnum (e : CEdge) (dt : ℝ) : ℝ :=
  match e.right with
  | some (areaR, _) => e.amax * e.len / min e.areaL areaR * dt
  | none => e.amax * e.len / e.areaL * dt

/-- The cell reported with an edge: `/repo/src/swe/swe_petsc.c:295-296`, `:602`. -/
noncomputable def CEdge.cell (e : CEdge) : ℤ :=
  match e.right with
  | some (areaR, cellR) => if e.areaL < areaR then e.cellL else cellR
  | none => e.cellL

/-- The update of the diagnostics by one edge: `/repo/src/swe/swe_petsc.c:286-297`, `:597-603`.
`reported` is the edge ID stored. -/
noncomputable def courantVisit (dt : ℝ) (d : Courant) (e : CEdge) (reported : ℤ) : Courant :=
  if e.wet then
    if e.cnum dt > d.num then ⟨e.cnum dt, reported, e.cell⟩ else d
  else d

/-- The flux loops of one process (flow only): the edge ID stored is `global_ids[edge_id]`
(`/repo/src/swe/swe_petsc.c:294`, `:601`). -/
noncomputable def courantLoop (dt : ℝ) (d : Courant) (es : List CEdge) : Courant :=
  es.foldl (fun d e => courantVisit dt d e e.gid) d

/-- The flux loops of the tracer operators, which store `global_ids[e]` where `e` counts the edges
of the loop (`/repo/src/tracer/tracer_petsc.c:245`, `:508`, `:945`); `gids` is the array
`edges->global_ids`. -/
noncomputable def courantLoopTracer (dt : ℝ) (gids : ℕ → ℤ) : ℕ → Courant → List CEdge → Courant
  | _, d, [] => d
  | n, d, e :: es => courantLoopTracer dt gids (n + 1) (courantVisit dt d e (gids n)) es

/-- `/repo/src/operator.c:705-715` `FindCourantNumberDiagnostics` on one item. -/
noncomputable def courantOp (inn result : Courant) : Courant :=
  if inn.num > result.num then inn else result

/-- A reduction in some order: MPI may combine the processes' items in any tree, with the operands
in any order since the operation was declared commutative (`/repo/src/operator.c:745`). -/
inductive RedTree
  | leaf (d : Courant)
  | node (l r : RedTree)

/-- the value of a reduction. `/repo/src/operator.c:745-768`. -/
noncomputable def RedTree.eval : RedTree → Courant
  | .leaf d => d
  | .node l r => courantOp l.eval r.eval

/-- the items combined. `/repo/src/operator.c:745-768`. -/
def RedTree.leaves : RedTree → List Courant
  | .leaf d => [d]
  | .node l r => l.leaves ++ r.leaves

/-- The Courant numbers written by the CEED kernels: `/repo/src/swe/swe_fluxes_ceed.h:84-85` for an
interior edge (`geom[2] = -len/areaL`, `geom[3] = len/areaR`), `:141` for a boundary edge; 0 for dry
edges (`:92-93`, `:147`). -/
noncomputable def CEdge.ceedNums (e : CEdge) (dt : ℝ) : List ℝ :=
  if e.wet then
    match e.right with
    | some (areaR, _) => [-e.amax * (-e.len / e.areaL) * dt, e.amax * (e.len / areaR) * dt]
    | none => [-e.amax * (-e.len / e.areaL) * dt]
  else
    match e.right with
    | some _ => [0, 0]
    | none => [0]

/-- `/repo/src/operator.c:775-840`: the maximum over the numbers written by the kernels; only the
number is updated. -/
noncomputable def courantCeed (dt : ℝ) (d : Courant) (es : List CEdge) : Courant :=
  { d with num := es.foldl (fun m e => max m ((e.ceedNums dt).foldl max (0 : ℝ))) d.num }

end RDy
