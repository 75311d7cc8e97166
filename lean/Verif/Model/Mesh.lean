import Mathlib.Data.Real.Sqrt
import Mathlib.Logic.Function.Basic

/-!
Model of mesh numbering, geometry and connectivity (`/repo/src/rdymesh.c`). The DMPlex queries that
deliver ownership, cones and centroids are inputs.
-/

namespace RDy

/-! ### Owned/local numbering -/

/-- State of the numbering loops: `count`, `local_to_owned`, `owned_to_local`
(`/repo/src/rdymesh.c:43`, `:159-177`). -/
structure NumState where
  count : ℤ
  l2o : ℕ → ℤ
  o2l : ℤ → ℤ

/-- Initial state: both arrays are filled with `-1` (`/repo/src/rdymesh.c:43`, `:160-161`). -/
def NumState.init : NumState := ⟨0, fun _ => -1, fun _ => -1⟩

/-- Body of the first loop (`/repo/src/rdymesh.c:164-170`). -/
def numOwnedStep (own : ℕ → Bool) (s : NumState) (icell : ℕ) : NumState :=
  if own icell then
    ⟨s.count + 1, Function.update s.l2o icell s.count, Function.update s.o2l s.count icell⟩
  else s

/-- Body of the second loop (`/repo/src/rdymesh.c:172-177`). -/
def numGhostStep (own : ℕ → Bool) (s : NumState) (icell : ℕ) : NumState :=
  if own icell then s
  else ⟨s.count + 1, Function.update s.l2o icell s.count, s.o2l⟩

/-- `/repo/src/rdymesh.c:159-177`: both loops over `n` cells. -/
def numberCells (own : ℕ → Bool) (n : ℕ) : NumState :=
  (List.range n).foldl (numGhostStep own) ((List.range n).foldl (numOwnedStep own) NumState.init)

/-- `/repo/src/rdymesh.c:115-140`: `num_owned_cells`. -/
def numOwned (own : ℕ → Bool) (n : ℕ) : ℕ :=
  (List.range n).foldl (fun k i => if own i then k + 1 else k) 0

/-- `/repo/src/rdymesh.c:1185-1199` (centroids) and `:1222-1236` (areas): the values of owned cells
copied out in local order. -/
def ownedValues {α : Type} (own : ℕ → Bool) (n : ℕ) (f : ℕ → α) : List α :=
  (List.range n).foldl (fun l i => if own i then l ++ [f i] else l) []

/-! ### Geometry -/

/-- A point in the plane. `/repo/include/private/rdymeshimpl.h:9-11`. -/
structure P2 where
  x : ℝ
  y : ℝ

/-- A point in space. `/repo/include/private/rdymeshimpl.h:9-16`. -/
structure P3 where
  x : ℝ
  y : ℝ
  z : ℝ

/-- `/repo/src/rdymesh.c:641-653`: the vector from the left centroid to the right centroid
(internal edge) or to the edge midpoint (boundary edge). -/
noncomputable def l2r (v1 v2 l : P2) : Option P2 → P2
  | some r => ⟨r.x - l.x, r.y - l.y⟩
  | none => ⟨(v2.x + v1.x) / 2 - l.x, (v2.y + v1.y) / 2 - l.y⟩

/-- `/repo/src/rdymesh.c:632-663`: dot product of that vector with the edge vector rotated clockwise
by 90 degrees. -/
noncomputable def edgeDot (v1 v2 l : P2) (r : Option P2) : ℝ :=
  (l2r v1 v2 l r).x * (v2.y - v1.y) + (l2r v1 v2 l r).y * (-(v2.x - v1.x))

open Classical in
/-- `/repo/src/rdymesh.c:665-676`: vertex order after the possible flip. -/
noncomputable def orientedVertices (v1 v2 l : P2) (r : Option P2) : P2 × P2 :=
  if edgeDot v1 v2 l r < 0 then (v2, v1) else (v1, v2)

/-- `/repo/src/rdymesh.c:678-686`: length in the plane of an (oriented) edge. -/
noncomputable def edgeLen (a b : P2) : ℝ := Real.sqrt ((b.x - a.x) ^ 2 + (b.y - a.y) ^ 2)

open Classical in
/-- `/repo/src/rdymesh.c:678-688`: `(cn, sn)` of an edge; `none` is a division by zero. -/
noncomputable def edgeNormal (v1 v2 l : P2) (r : Option P2) : Option (ℝ × ℝ) :=
  match orientedVertices v1 v2 l r with
  | (a, b) =>
    if edgeLen a b = 0 then none
    else some ((b.y - a.y) / edgeLen a b, -(b.x - a.x) / edgeLen a b)

/-- `/repo/src/rdymesh.c:696-711`: classification of edges: the ids of internal and of boundary
edges. `cells e = (l, r)` with `-1` for "no cell". -/
def splitEdges (cells : ℕ → ℤ × ℤ) (n : ℕ) : List ℕ × List ℕ :=
  (List.range n).foldl (fun s e =>
    if (cells e).2 ≥ 0 ∧ (cells e).1 ≥ 0 then (s.1 ++ [e], s.2) else (s.1, s.2 ++ [e])) ([], [])

/-- `/repo/src/rdymesh.c:720-739` `AreVerticesOrientedCounterClockwise`. -/
def isCCW (p0 p1 p2 : P3) : Prop :=
  (p1.y - p0.y) * (p2.x - p1.x) - (p2.y - p1.y) * (p1.x - p0.x) < 0

/-- `/repo/src/rdymesh.c:774-781`: the two quotients; `none` is a division by zero. -/
noncomputable def slopes3 (p0 p1 p2 : P3) : Option (ℝ × ℝ) :=
  if (p2.y - p0.y) * (p1.x - p0.x) - (p1.y - p0.y) * (p2.x - p0.x) = 0 then none
  else if (p2.x - p0.x) * (p1.y - p0.y) - (p1.x - p0.x) * (p2.y - p0.y) = 0 then none
  else some
    (((p2.y - p0.y) * (p1.z - p0.z) - (p1.y - p0.y) * (p2.z - p0.z)) /
        ((p2.y - p0.y) * (p1.x - p0.x) - (p1.y - p0.y) * (p2.x - p0.x)),
     ((p2.x - p0.x) * (p1.z - p0.z) - (p1.x - p0.x) * (p2.z - p0.z)) /
        ((p2.x - p0.x) * (p1.y - p0.y) - (p1.x - p0.x) * (p2.y - p0.y)))

open Classical in
/-- `/repo/src/rdymesh.c:747-784` `ComputeXYSlopesForTriangle`. -/
noncomputable def triSlopes (p0 p1 p2 : P3) : Option (ℝ × ℝ) :=
  if isCCW p0 p1 p2 then slopes3 p0 p1 p2 else slopes3 p0 p2 p1

/-- `/repo/src/rdymesh.c:786-797` `TriangleProjected2DArea`. -/
noncomputable def triArea (a b c : P3) : ℝ :=
  0.5 * |(b.x - a.x) * (c.y - a.y) - (b.y - a.y) * (c.x - a.x)|

/-- `/repo/src/rdymesh.c:843-855`: accumulation over the four triangles formed with the centroid. -/
noncomputable def quadAccum (c : P3) : List (P3 × P3) → Option (ℝ × ℝ × ℝ)
  | [] => some (0, 0, 0)
  | (a, b) :: es =>
    match triSlopes a b c, quadAccum c es with
    | some (sx, sy), some (X, Y, A) =>
      some (triArea a b c * sx + X, triArea a b c * sy + Y, triArea a b c + A)
    | _, _ => none

/-- `/repo/src/rdymesh.c:821-858`: slopes of a quadrilateral with centroid `c`. The four terms are
added in the opposite order, which does not matter for real numbers. -/
noncomputable def quadSlopes (v0 v1 v2 v3 c : P3) : Option (ℝ × ℝ) :=
  match quadAccum c [(v0, v1), (v1, v2), (v2, v3), (v3, v0)] with
  | some (X, Y, A) => if A = 0 then none else some (X / A, Y / A)
  | none => none

/-- `/repo/src/rdymesh.c:1496-1504`: the sum of the shoelace formula over consecutive vertices,
starting from vertex `a` with the remaining vertices `vs`, closing at `first`. -/
noncomputable def shoelaceAux (first : P2) : P2 → List P2 → ℝ
  | a, [] => a.x * first.y - first.x * a.y
  | a, b :: vs => (a.x * b.y - b.x * a.y) + shoelaceAux first b vs

/-- `/repo/src/rdymesh.c:1478-1506` (`RDyMeshOverride2DProjection`): projected area of a cell. -/
noncomputable def shoelaceArea : List P2 → ℝ
  | [] => 0
  | a :: vs => |shoelaceAux a a vs| / 2

/-! ### XDMF connectivity -/

/-- `/repo/src/rdymesh.c:1085-1098`: a cell's entry of the connectivity vector: four slots, `-1` in
the unused ones. -/
def connBlock (vs : List ℤ) : List ℤ := (vs ++ List.replicate 4 (-1)).take 4

/-- `/repo/src/rdymesh.c:1115-1123`: number of entries of the flat vector. -/
def connCount (blocks : List (List ℤ)) : ℕ :=
  (blocks.map fun b => (b.filter fun v => v > -1).length).sum + blocks.length

/-- `/repo/src/rdymesh.c:1143-1166`: the flat vector; `none` is the error "Unsupported cell type". -/
def connFlat : List (List ℤ) → Option (List ℤ)
  | [] => some []
  | b :: bs =>
    if (b.filter fun v => v > -1).length = 3 then
      (connFlat bs).map fun l => 4 :: (b.filter fun v => v > -1) ++ l
    else if (b.filter fun v => v > -1).length = 4 then
      (connFlat bs).map fun l => 5 :: (b.filter fun v => v > -1) ++ l
    else none

end RDy
