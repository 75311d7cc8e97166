import Verif.Model.Roe
import Mathlib.Analysis.SpecialFunctions.Pow.Real

/-!
Model of the volume/free-surface relation and the water surface at the vertices, used by the CEED backend for
`well_balancing: bradford_sanders_2002`: `/repo/src/swe/swe_well_balancing.h`,
`/repo/src/operator_fluxes_ceed.c:631-859`, `/repo/src/operator.c:518-529`, `/repo/src/swe/swe_fluxes_ceed.h:15-19`.
-/

namespace RDy

/-- `/repo/src/operator_fluxes_ceed.c:637-645` `sort3` -/
noncomputable def sort3 (d1 d2 d3 : ℝ) : ℝ × ℝ × ℝ :=
  let p := if d1 > d2 then (d2, d1) else (d1, d2)
  let q := if p.2 > d3 then (d3, p.2) else (p.2, d3)
  let r := if p.1 > q.1 then (q.1, p.1) else (p.1, q.1)
  (r.1, r.2, q.2)

/-- `/repo/src/swe/swe_well_balancing.h:48` `h3` -/
noncomputable def vfrH3 (z1 z2 z3 : ℝ) : ℝ := z3 - (z1 + z2 + z3) / 3

/-- `/repo/src/swe/swe_well_balancing.h:49-54` `h2` -/
noncomputable def vfrH2 (z1 z2 z3 : ℝ) : ℝ :=
  if z2 < z3 then (z2 - z1) * (z2 - z1) / (3 * (z3 - z1)) else vfrH3 z1 z2 z3

/-- `/repo/src/swe/swe_well_balancing.h:70` `b` -/
def vfrB (z1 z3 : ℝ) : ℝ := z3 - 3 * z1

/-- `/repo/src/swe/swe_well_balancing.h:71` `c` -/
def vfrC (z1 z2 z3 h : ℝ) : ℝ := z1 * z2 + z1 * z1 - z3 * z2 - 3 * h * (z3 - z1)

/-- `/repo/src/swe/swe_well_balancing.h:56-74`: the free-surface elevation `eta_cell` of a cell from its depth
and its sorted vertex elevations. -/
noncomputable def etaCell (tinyH z1 z2 z3 h : ℝ) : ℝ :=
  if h ≤ tinyH then z1
  else if h ≥ vfrH3 z1 z2 z3 then (z1 + z2 + z3) / 3 + h
  else if 0 < h ∧ h ≤ vfrH2 z1 z2 z3 then z1 + (3 * h * (z2 - z1) * (z3 - z1)) ^ (1 / 3 : ℝ)
  else if vfrH2 z1 z2 z3 < h ∧ h < vfrH3 z1 z2 z3 then
    0.5 * (-vfrB z1 z3 + (vfrB z1 z3 * vfrB z1 z3 - 4 * vfrC z1 z2 z3 h) ^ (0.5 : ℝ))
  else 0

/-- The mesh as the eta operator reads it (`/repo/src/operator_fluxes_ceed.c:798-827`): the number of vertices,
the cells at each vertex, the vertices of each cell (three or four of them) and the elevations of the
vertices. -/
structure VMesh where
  numVertices : ℕ
  cellsAt : ℕ → List ℕ
  verticesOf : ℕ → List ℕ
  z : ℕ → ℝ

/-- `/repo/src/operator_fluxes_ceed.c:805-819`: the elevations of the first three vertices of a cell, sorted. -/
noncomputable def geomZ (m : VMesh) (c : ℕ) : ℝ × ℝ × ℝ :=
  sort3 (m.z ((m.verticesOf c).getD 0 0)) (m.z ((m.verticesOf c).getD 1 0)) (m.z ((m.verticesOf c).getD 2 0))

/-- What cell `c` adds to vertex `v`: `etavertex[0][i]`, `/repo/src/swe/swe_well_balancing.h:76`, with the weight of
`/repo/src/operator_fluxes_ceed.c:820`. -/
noncomputable def etaShare (tinyH : ℝ) (m : VMesh) (h : ℕ → ℝ) (v c : ℕ) : ℝ :=
  etaCell tinyH (geomZ m c).1 (geomZ m c).2.1 (geomZ m c).2.2 (h c) * (1 / ((m.cellsAt v).length : ℝ))

/-- `/repo/src/operator.c:528-529` with `/repo/src/operator_fluxes_ceed.c:798-827`: `eta_vertices` is set to zero
and every connection of a vertex and a cell adds its share. -/
noncomputable def etaVertices (tinyH : ℝ) (m : VMesh) (h : ℕ → ℝ) : ℕ → ℝ :=
  (List.range m.numVertices).foldl
    (fun eta v => (m.cellsAt v).foldl
      (fun eta c => fun k => if k = v then eta k + etaShare tinyH m h v c else eta k) eta)
    fun _ => 0

/-- `/repo/src/swe/swe_fluxes_ceed.h:15-19` `ComputeDhv` -/
noncomputable def computeDhv (zBeg zEnd etaBeg etaEnd : ℝ) : ℝ := max (etaEnd - zEnd) 0 - max (etaBeg - zBeg) 0

/-! ### Selection of the method -/

/-- `/repo/include/private/rdyconfigimpl.h:58-62` `RDyWellBalanceMethod` -/
inductive WellBalancing
  | none
  | bs2002
  | hr
  deriving DecidableEq

/-- The part of `ValidateConfig` about this setting, `/repo/src/yaml_input.c:916-925`: is the configuration
refused? `ceedNow` is the value of `CeedEnabled()` at that moment. -/
def refusesBS2002 (wb : WellBalancing) (numSediment : ℕ) (ceedNow : Bool) : Bool :=
  if wb = .bs2002 then
    if numSediment > 0 then true else if ceedNow then true else false
  else false

/-- The well-balancing method that the operators implement: `/repo/src/operator.c:146-217`. -/
def implemented (wb : WellBalancing) (ceed : Bool) : WellBalancing :=
  if ceed then wb else if wb = .bs2002 then .none else wb

/-- The first lines of `RDySetup` (`/repo/src/rdysetup.c:1379-1398`): the configuration is read and validated,
then `OverrideParameters` sets the CEED resource of the process from the option `-ceed`
(`/repo/src/rdysetup.c:106-132`). `ceedNow` is the state left by an earlier `RDySetup` of the process (false in a
new process). The result is `none` if the configuration is refused, otherwise the method in use; the second
component is the state of CEED afterwards. -/
def setupWellBalancing (wb : WellBalancing) (numSediment : ℕ) (ceedNow ceedOption : Bool) :
    Option WellBalancing × Bool :=
  if refusesBS2002 wb numSediment ceedNow then (Option.none, ceedNow)
  else (some (implemented wb ceedOption), ceedOption)

end RDy
