import Verif.Model.Data
import Verif.Model.CeedTSource
import Verif.Model.PetscRhs

/-!
Model of a run as a caller of the library sees it: calls that set sources and Manning coefficients (`/repo/src/rdydata.c:209-374`, `:506-539`), in any order, between
evaluations of the right-hand side (`/repo/src/operator.c:501-672`). The setters of `Data.lean` work on functions; here they work on the vectors that the operators read
(`ext_src` and `mat_props` of the CEED source operator, `/repo/src/operator.c:1111-1163`, `:1284-1335`; `external_sources` and `material_properties` of the PETSc operator,
`/repo/src/operator.c:92-97`, `:1165-1196`, `:1337-1366`), and an access outside a vector is undefined.
-/

namespace RDy

/-- The regions as `InitRegions` makes them of the cells of the mesh. `/repo/src/rdysetup.c:221-272`. -/
def ownedRegions (cm : CellMap) (regions : List Region) : List SrcRegion :=
  regions.map fun r => ⟨r.id, r.ownedIds cm⟩

/-- `/repo/src/rdydata.c:525-539` `RDySetDomainManningsN`, with the copies at `/repo/src/operator.c:1284-1366`: like a region made of all owned cells. -/
def setDomainManning (numOwned : ℕ) (values : List ℝ) (data : ℕ → ℝ) : Res (ℕ → ℝ) :=
  if values.length ≠ numOwned then .error
  else .ok (restoreRegionData 1 (List.range numOwned)
    (fun c i => if c = 0 then values.getD i 0 else getRegionData 1 (List.range numOwned) data c i) data)

/-- A setter applied to a vector with `n` components per cell: the rows of the cells `owned` are all read and written
(`/repo/src/operator.c:1127-1133`, `:1149-1155`), which is undefined if one lies outside the vector. Checks of sizes come first
(`/repo/src/rdydata.c:231-233`, `:329-330`, `:511-513`, `:528-529`). -/
def onVector (n : ℕ) (owned : List ℕ) (f : (ℕ → ℝ) → Res (ℕ → ℝ)) (a : Arr ℝ) : Res (Arr ℝ) :=
  match f a.val with
  | .ok d => if ∀ o ∈ owned, n * o + n ≤ a.len then .ok ⟨a.len, d⟩ else .ub
  | .error => .error
  | .ub => .ub

/-- The cells that a call for the region with that ID touches. `/repo/src/rdydata.c:209-222`. -/
def ownedOfId (regions : List SrcRegion) (rid : ℤ) : List ℕ :=
  match regionOfId regions rid with
  | none => []
  | some r => r.owned

/-- The cells that a call for the region with that index touches. `/repo/src/rdydata.c:509-510`. -/
def ownedOfIndex (regions : List SrcRegion) (index : ℤ) : List ℕ :=
  match regions[index.toNat]? with
  | none => []
  | some r => r.owned

/-- A call of the library: `RDySetRegional{Water,XMomentum,YMomentum,Sediment}Source`, `RDySetHomogeneous*Source`, `RDySetDomain*Source`
(`/repo/src/rdydata.c:248-366`; the component is 0, 1, 2, or 3 and the class), `RDySetRegionalManningsN`, `RDySetDomainManningsN` (`:506-539`), or an evaluation of the
right-hand side by the time stepper (`/repo/src/rdysetup.c:1120-1142`) with the step, the solution with ghost cells, and (CEED) the flux divergences that the flux operators gave. -/
inductive ApiCall
  | regional (rid : ℤ) (comp : ℕ) (values : List ℝ)
  | homogeneous (rid : ℤ) (comp : ℕ) (value : ℝ)
  | domain (comp : ℕ) (values : List ℝ)
  | regionalManning (index : ℤ) (values : List ℝ)
  | domainManning (values : List ℝ)
  | evaluate (dt : ℝ) (u fd : Arr ℝ)

/-- What is kept between calls: the vectors of sources and of material properties, and what the operators keep. Also the right-hand sides so far, the last one first.
`/repo/src/operator.c:92-97`, `/repo/include/private/rdyoperatorimpl.h:107-206`. -/
structure ApiState (σ : Type) where
  ext : Arr ℝ
  mat : Arr ℝ
  mem : σ
  out : List (Arr Num)

/-- One call. `ev` is the evaluation with the sources and coefficients that the vectors hold at that time. `/repo/src/rdydata.c:209-374`, `:506-539`,
`/repo/src/operator.c:501-672`. -/
def apiStep {σ : Type} (n N : ℕ) (regions : List SrcRegion) (ev : σ → SCall → Option (σ × Arr Num)) (s : ApiState σ) :
    ApiCall → Res (ApiState σ)
  | .regional rid comp values =>
    match onVector n (ownedOfId regions rid) (setRegional n regions rid comp values) s.ext with
    | .ok a => .ok { s with ext := a }
    | .error => .error
    | .ub => .ub
  | .homogeneous rid comp value =>
    match onVector n (ownedOfId regions rid) (setHomogeneous n regions rid comp value) s.ext with
    | .ok a => .ok { s with ext := a }
    | .error => .error
    | .ub => .ub
  | .domain comp values =>
    match onVector n (List.range N) (setDomain n N comp values) s.ext with
    | .ok a => .ok { s with ext := a }
    | .error => .error
    | .ub => .ub
  | .regionalManning index values =>
    match onVector 1 (ownedOfIndex regions index) (setRegionalManning regions index values) s.mat with
    | .ok a => .ok { s with mat := a }
    | .error => .error
    | .ub => .ub
  | .domainManning values =>
    match onVector 1 (List.range N) (setDomainManning N values) s.mat with
    | .ok a => .ok { s with mat := a }
    | .error => .error
    | .ub => .ub
  | .evaluate dt u fd =>
    match ev s.mem ⟨dt, u, s.ext, s.mat, fd⟩ with
    | some r => .ok { s with mem := r.1, out := r.2 :: s.out }
    | none => .ub

/-- A sequence of calls; the first error ends it (`PetscCall`). `/repo/src/rdydata.c:209-374`, `:506-539`. -/
def apiRun {σ : Type} (n N : ℕ) (regions : List SrcRegion) (ev : σ → SCall → Option (σ × Arr Num)) :
    List ApiCall → ApiState σ → Res (ApiState σ)
  | [], s => .ok s
  | a :: l, s =>
    match apiStep n N regions ev s a with
    | .ok s' => apiRun n N regions ev l s'
    | .error => .error
    | .ub => .ub

/-- The vectors as they are created: all entries 0 (`/repo/src/operator_sources_ceed.c:161-175`, `/repo/src/operator.c:92-97`). Simplified: the material properties that
`InitMaterialProperties` sets (`/repo/src/rdysetup.c:505-550`) can be a first call. -/
def apiInit {σ : Type} (n N : ℕ) (m : σ) : ApiState σ := ⟨Arr.calloc (n * N) 0, Arr.calloc N 0, m, []⟩

/-- The evaluation with the PETSc backend. `/repo/src/operator.c:656-672`. -/
noncomputable def petscEval (P : FlowParams) (C : PetscCfg) (T : Tables) (V : BedTables) (Bs : List Bnd) (nc n : ℕ) (m : PetscMem × PetscVecs) (a : SCall) :
    Option ((PetscMem × PetscVecs) × Arr Num) :=
  (applyPetsc P C T V Bs nc n a.dt m.1 { m.2 with src := a.ext, mat := a.mat } a.u).map fun r => ((r.1, r.2.1), r.2.2)

end RDy
