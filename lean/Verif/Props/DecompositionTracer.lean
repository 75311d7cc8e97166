import Verif.Props.DecompositionCeed
import Verif.Props.TracerMax
import Verif.Props.CeedTracer

/-!
C107: the right-hand side of a run with tracers, and the states computed from it, do not depend on how the mesh is
divided among processes — as long as the roughness read for a cell is its own (PETSc), and as long as no front of
water that carries tracers is in the domain (CEED).
-/

namespace RDy

open Finset

/-! ### Specification: the undivided problem -/

/-- The undivided problem of a run with tracers: cells by global number, external sources by component. -/
structure TProblem where
  N : ℕ
  area : ℕ → ℝ
  zc : ℕ → ℝ
  dzdx : ℕ → ℝ
  dzdy : ℕ → ℝ
  src : ℕ → ℕ → ℝ
  mann : ℕ → ℝ
  edges : List GEdge
  bedges : List TBEdge

/-- A process's part of the problem (as `Divides`, for runs with tracers): `mann p` and `src p` are stored by owned
number, `bnd p` are the boundary edges of process `p`. -/
structure TDivides (Q : TProblem) {np : ℕ} (pm : Fin np → PMesh) (bnd : Fin np → List TBEdge)
    (gid : Fin np → ℕ → ℕ) (owner : ℕ → Fin np) (src : Fin np → ℕ → ℕ → ℝ) (mann : Fin np → ℕ → ℝ) : Prop where
  lt : ∀ p, ∀ c < (pm p).numCells, gid p c < Q.N
  inj : ∀ p, ∀ c < (pm p).numCells, ∀ c' < (pm p).numCells, gid p c = gid p c' → c = c'
  cover : ∀ γ < Q.N, ∃ c < (pm (owner γ)).numCells, gid (owner γ) c = γ
  area : ∀ p, ∀ c < (pm p).numCells, (pm p).area c = Q.area (gid p c)
  zc : ∀ p, ∀ c < (pm p).numCells, (pm p).zc c = Q.zc (gid p c)
  dzdx : ∀ p, ∀ c < (pm p).numCells, (pm p).dzdx c = Q.dzdx (gid p c)
  dzdy : ∀ p, ∀ c < (pm p).numCells, (pm p).dzdy c = Q.dzdy (gid p c)
  src : ∀ p, ∀ c < (pm p).numCells, (pm p).owned c = true → src p ((pm p).l2o c) = Q.src (gid p c)
  mann : ∀ p, ∀ c < (pm p).numCells, (pm p).owned c = true → mann p ((pm p).l2o c) = Q.mann (gid p c)
  bvalid : ∀ p, BndValid (pm p) (bnd p)
  bedges : ∀ p, List.Perm
    ((((bnd p).filter fun e => (pm p).owned e.cell)).map fun e => { e with cell := gid p e.cell })
    (Q.bedges.filter fun b => owner b.cell = p)

/-- The entry of the roughness vector at the *local* number of an owned cell is that of the cell (true if the
roughness is the same everywhere, or if no ghost cell precedes an owned one). -/
def OwnRoughness {np : ℕ} (pm : Fin np → PMesh) (mann : Fin np → ℕ → ℝ) : Prop :=
  ∀ p, ∀ c < (pm p).numCells, (pm p).owned c = true → mann p c = mann p ((pm p).l2o c)

/-- What the two cells of an edge lose and gain per unit length. -/
noncomputable def facePairT (hr : Bool) (sv : TSolver) (P : FlowParams) (n : ℕ) (zL zR : ℝ) (sL sR : TCons)
    (sn cn : ℝ) : Option ((ℕ → ℝ) × (ℕ → ℝ)) :=
  if hr then
    if sR.q.h < P.tinyH ∧ sL.q.h < P.tinyH then some (fun _ => 0, fun _ => 0)
    else (hrTFlux sv P n (hrTState P zL (max zL zR) sL) (hrTState P zR (max zL zR) sR) sn cn).map fun F =>
      (fun d => F d + hrTCorrection P sL.q.h (hrTState P zL (max zL zR) sL).p.h sn cn d,
       fun d => F d + hrTCorrection P sR.q.h (hrTState P zR (max zL zR) sR).p.h sn cn d)
  else (usedTracerFlux sv P.g P.tinyH n (tracerVelocities P.tinyH sL) (tracerVelocities P.tinyH sR) sn cn).map
    fun F => (F, F)

/-- the pair of an interior edge of the problem -/
noncomputable def TProblem.pair (Q : TProblem) (hr : Bool) (sv : TSolver) (P : FlowParams) (n : ℕ)
    (U : ℕ → TCons) (e : GEdge) : Option ((ℕ → ℝ) × (ℕ → ℝ)) :=
  facePairT hr sv P n (Q.zc e.c1) (Q.zc e.c2) (U e.c1) (U e.c2) e.sn e.cn

/-- component `d` of what an interior edge contributes to cell `γ` -/
noncomputable def TProblem.edgeTerm (Q : TProblem) (hr : Bool) (sv : TSolver) (P : FlowParams) (n : ℕ)
    (U : ℕ → TCons) (γ d : ℕ) (e : GEdge) : ℝ :=
  (if e.c1 = γ then
    ((Q.pair hr sv P n U e).getD (fun _ => 0, fun _ => 0)).1 d * (-e.len / Q.area γ) else 0) +
  if e.c2 = γ then ((Q.pair hr sv P n U e).getD (fun _ => 0, fun _ => 0)).2 d * (e.len / Q.area γ) else 0

/-- component `d` of what a boundary edge contributes to cell `γ` -/
noncomputable def TProblem.bndTerm (Q : TProblem) (sv : TSolver) (P : FlowParams) (n : ℕ) (U : ℕ → TCons)
    (γ d : ℕ) (e : TBEdge) : ℝ :=
  if e.cell = γ then bndFluxT sv P n d U e * (-e.len / Q.area γ) else 0

/-- component `d` of the flux divergence of cell `γ`: a sum over the edges of the undivided mesh -/
noncomputable def TProblem.div (Q : TProblem) (hr : Bool) (sv : TSolver) (P : FlowParams) (n : ℕ)
    (U : ℕ → TCons) (γ d : ℕ) : ℝ :=
  (Q.edges.map (Q.edgeTerm hr sv P n U γ d)).sum + (Q.bedges.map (Q.bndTerm sv P n U γ d)).sum

/-- The right-hand side of cell `γ` (components `d < 3 + n`) in terms of the undivided problem alone. -/
noncomputable def TProblem.rhs (Q : TProblem) (hr : Bool) (sv : TSolver) (P : FlowParams) (n : ℕ) (dt : ℝ)
    (U : ℕ → TCons) (γ : ℕ) : Option (ℕ → ℝ) :=
  (frictionSemiImplicit P dt (Q.mann γ) (U γ).q (Q.div hr sv P n U γ 1) (Q.div hr sv P n U γ 2)
    (bedTerm P (!hr) (Q.dzdx γ) (Q.dzdy γ) (U γ).q.h).1
    (bedTerm P (!hr) (Q.dzdx γ) (Q.dzdy γ) (U γ).q.h).2).map fun t d => Q.div hr sv P n U γ d +
      if d = 0 then Q.src γ 0
      else if d = 1 then -(bedTerm P (!hr) (Q.dzdx γ) (Q.dzdy γ) (U γ).q.h).1 - t.1 + Q.src γ 1
      else if d = 2 then -(bedTerm P (!hr) (Q.dzdx γ) (Q.dzdy γ) (U γ).q.h).2 - t.2 + Q.src γ 2
      else tracerSource P (Q.mann γ) (U γ) (Q.src γ d) (d - 3)

/-- the flux of a boundary edge is a number -/
def bndDefinedT (sv : TSolver) (P : FlowParams) (n : ℕ) (u : ℕ → TCons) (e : TBEdge) : Prop :=
  (usedTracerFlux sv P.g P.tinyH n (tracerVelocities P.tinyH (u e.cell))
    (tracerRight P.tinyH e.bc (tracerVelocities P.tinyH (u e.cell)) e.sn e.cn) e.sn e.cn).isSome

/-- all fluxes of the undivided problem are numbers -/
def TProblem.FluxesDefined (Q : TProblem) (hr : Bool) (sv : TSolver) (P : FlowParams) (n : ℕ)
    (U : ℕ → TCons) : Prop :=
  (∀ e ∈ Q.edges, (Q.pair hr sv P n U e).isSome) ∧ ∀ e ∈ Q.bedges, bndDefinedT sv P n U e

/-! ### Single edges -/

theorem addOwnedT_cell {pm : PMesh} (hinj : OwnedInj pm) (f : ℕ → ℕ → ℝ) {c c' : ℕ} (hc : c < pm.numCells)
    (ho : pm.owned c = true) (hc' : c' < pm.numCells) (F : ℕ → ℝ) (s : ℝ) (d : ℕ) :
    addOwnedT pm f c' F s (pm.l2o c) d = f (pm.l2o c) d + if c' = c then F d * s else 0 := by
  unfold addOwnedT
  by_cases e : c' = c
  · subst e
    rw [if_pos ho, if_pos rfl, if_pos rfl]
  · rw [if_neg e, add_zero]
    by_cases ho' : pm.owned c' = true
    · rw [if_pos ho', if_neg fun h => e (hinj c hc c' hc' ho ho' h).symm]
    · rw [if_neg ho']

/-- one internal edge, with either discretisation -/
noncomputable def edgeStepT (hr : Bool) (sv : TSolver) (P : FlowParams) (n : ℕ) (pm : PMesh) (u : ℕ → TCons) :
    (ℕ → ℕ → ℝ) → IEdge → Option (ℕ → ℕ → ℝ) :=
  if hr then hrTEdge sv P n pm u else tracerEdge sv P n pm u

theorem tracerDiv_fold (hr : Bool) (sv : TSolver) (P : FlowParams) (n : ℕ) (pm : PMesh) (bnd : List TBEdge)
    (u : ℕ → TCons) : tracerDiv hr sv P n pm bnd u =
      (pm.internal.foldlM (edgeStepT hr sv P n pm u) fun _ _ => 0).bind fun f =>
        bnd.foldlM (tracerBEdge sv P n pm u) f := by
  cases hr <;> rfl

theorem edgeStepT_none {hr : Bool} {sv : TSolver} {P : FlowParams} {n : ℕ} {pm : PMesh} {u : ℕ → TCons}
    {f : ℕ → ℕ → ℝ} {e : IEdge} (h : e.right = none) : edgeStepT hr sv P n pm u f e = some f := by
  cases hr <;> simp [edgeStepT, hrTEdge, tracerEdge, h]

/-- the pair of a local edge -/
noncomputable def localPairT (hr : Bool) (sv : TSolver) (P : FlowParams) (n : ℕ) (pm : PMesh) (u : ℕ → TCons)
    (e : IEdge) (r : ℕ) : Option ((ℕ → ℝ) × (ℕ → ℝ)) :=
  facePairT hr sv P n (pm.zc e.left) (pm.zc r) (u e.left) (u r) e.sn e.cn

theorem edgeStepT_isSome {hr : Bool} {sv : TSolver} {P : FlowParams} {n : ℕ} {pm : PMesh} {u : ℕ → TCons}
    (f : ℕ → ℕ → ℝ) {e : IEdge} {r : ℕ} (h : e.right = some r) :
    (edgeStepT hr sv P n pm u f e).isSome = (localPairT hr sv P n pm u e r).isSome := by
  cases hr with
  | false => simp [edgeStepT, tracerEdge, h, localPairT, facePairT]
  | true =>
    simp only [edgeStepT, hrTEdge, h, localPairT, facePairT, if_true]
    by_cases hd : (u r).q.h < P.tinyH ∧ (u e.left).q.h < P.tinyH
    · rw [if_pos hd, if_pos hd]; rfl
    · rw [if_neg hd, if_neg hd, Option.isSome_map, Option.isSome_map]

/-- component `d` of what a local edge contributes to the local cell `c` -/
noncomputable def edgeCellT (hr : Bool) (sv : TSolver) (P : FlowParams) (n : ℕ) (pm : PMesh) (u : ℕ → TCons)
    (c d : ℕ) (e : IEdge) : ℝ :=
  match e.right with
  | none => 0
  | some r =>
    (if e.left = c then
      ((localPairT hr sv P n pm u e r).getD (fun _ => 0, fun _ => 0)).1 d * (-e.len / pm.area c) else 0) +
    if r = c then
      ((localPairT hr sv P n pm u e r).getD (fun _ => 0, fun _ => 0)).2 d * (e.len / pm.area c) else 0

theorem edgeStepT_cell {hr : Bool} {sv : TSolver} {P : FlowParams} {n : ℕ} {pm : PMesh} (hinj : OwnedInj pm)
    (hv : EdgesValid pm) (u : ℕ → TCons) {c : ℕ} (hc : c < pm.numCells) (ho : pm.owned c = true) (d : ℕ)
    (f f' : ℕ → ℕ → ℝ) (e : IEdge) (he : e ∈ pm.internal) (h : edgeStepT hr sv P n pm u f e = some f') :
    f' (pm.l2o c) d = f (pm.l2o c) d + edgeCellT hr sv P n pm u c d e := by
  cases hre : e.right with
  | none =>
    rw [edgeStepT_none hre] at h
    simp only [Option.some.injEq] at h
    subst h
    simp [edgeCellT, hre]
  | some r =>
    have hl := hv.left e he
    have hrr := hv.right e he r hre
    unfold edgeCellT
    rw [hre]
    simp only
    cases hr with
    | false =>
      simp only [edgeStepT, Bool.false_eq_true, if_false, tracerEdge, hre, Option.map_eq_some_iff] at h
      obtain ⟨F, hF, rfl⟩ := h
      rw [addOwnedT_cell hinj _ hc ho hrr, addOwnedT_cell hinj _ hc ho hl]
      simp only [localPairT, facePairT, Bool.false_eq_true, if_false, hF, Option.map_some, Option.getD_some]
      rw [add_assoc]
      congr 2
      · by_cases hx : e.left = c
        · rw [if_pos hx, if_pos hx, hx]
        · rw [if_neg hx, if_neg hx]
      · by_cases hx : r = c
        · rw [if_pos hx, if_pos hx, hx]
        · rw [if_neg hx, if_neg hx]
    | true =>
      simp only [edgeStepT, if_true, hrTEdge, hre] at h
      simp only [localPairT, facePairT, if_true]
      by_cases hd : (u r).q.h < P.tinyH ∧ (u e.left).q.h < P.tinyH
      · rw [if_pos hd] at h
        simp only [Option.some.injEq] at h
        subst h
        simp [hd]
      · rw [if_neg hd] at h
        simp only [Option.map_eq_some_iff] at h
        obtain ⟨F, hF, rfl⟩ := h
        rw [addOwnedT_cell hinj _ hc ho hrr, addOwnedT_cell hinj _ hc ho hl, addOwnedT_cell hinj _ hc ho hrr,
          addOwnedT_cell hinj _ hc ho hl]
        simp only [if_neg hd, hF, Option.map_some, Option.getD_some]
        by_cases hx : e.left = c <;> by_cases hy : r = c <;> simp only [hx, hy, if_true, if_false] <;> ring

/-! ### Edges seen from the other side -/

theorem tracerFlux_swap_isSome (sv : TSolver) (g : ℝ) (n : ℕ) (L R : TPrim) (sn cn sn' cn' : ℝ) :
    (tracerFlux sv g n R L sn' cn').isSome = (tracerFlux sv g n L R sn cn).isSome := by
  unfold tracerFlux
  by_cases hr : RoeDefined L.p.h R.p.h
  · rw [if_pos hr, if_pos (roeDefined_comm.mpr hr)]
    cases sv <;> rfl
  · rw [if_neg hr, if_neg fun h => hr (roeDefined_comm.mp h)]

theorem hrTCorrection_swap (P : FlowParams) (h hrec sn cn : ℝ) (d : ℕ) :
    hrTCorrection P h hrec (-sn) (-cn) d = -hrTCorrection P h hrec sn cn d := by
  unfold hrTCorrection
  split_ifs <;> ring

theorem facePairT_isSome (hr : Bool) (sv : TSolver) (P : FlowParams) (n : ℕ) (zL zR : ℝ) (sL sR : TCons)
    (sn cn : ℝ) :
    (facePairT hr sv P n zR zL sR sL (-sn) (-cn)).isSome = (facePairT hr sv P n zL zR sL sR sn cn).isSome := by
  unfold facePairT
  cases hr with
  | false =>
    simp only [Bool.false_eq_true, if_false, Option.isSome_map]
    unfold usedTracerFlux
    by_cases hw : (tracerVelocities P.tinyH sR).p.h < P.tinyH ∧ (tracerVelocities P.tinyH sL).p.h < P.tinyH
    · rw [if_neg (not_not.mpr hw), if_neg (not_not.mpr hw.symm)]
    · rw [if_pos hw, if_pos fun h => hw h.symm]
      exact tracerFlux_swap_isSome ..
  | true =>
    simp only [if_true]
    by_cases hw : sR.q.h < P.tinyH ∧ sL.q.h < P.tinyH
    · rw [if_pos hw, if_pos hw.symm]
    · rw [if_neg hw, if_neg fun h => hw h.symm, Option.isSome_map, Option.isSome_map, max_comm zR zL]
      generalize hrTState P zL (max zL zR) sL = L
      generalize hrTState P zR (max zL zR) sR = R
      unfold hrTFlux
      by_cases hr : L.p.h > P.tinyH ∨ R.p.h > P.tinyH
      · rw [if_pos hr, if_pos hr.symm]
        exact tracerFlux_swap_isSome ..
      · rw [if_neg hr, if_neg fun h => hr h.symm]

theorem facePairT_swap (hr : Bool) (sv : TSolver) (P : FlowParams) {n d : ℕ} (hd : d < 3 + n) (zL zR : ℝ)
    (sL sR : TCons) (sn cn : ℝ) :
    ((facePairT hr sv P n zR zL sR sL (-sn) (-cn)).getD (fun _ => 0, fun _ => 0)).1 d =
      -((facePairT hr sv P n zL zR sL sR sn cn).getD (fun _ => 0, fun _ => 0)).2 d ∧
    ((facePairT hr sv P n zR zL sR sL (-sn) (-cn)).getD (fun _ => 0, fun _ => 0)).2 d =
      -((facePairT hr sv P n zL zR sL sR sn cn).getD (fun _ => 0, fun _ => 0)).1 d := by
  have hs := facePairT_isSome hr sv P n zL zR sL sR sn cn
  cases hr with
  | false =>
    have hsw := edgeFluxT_swap sv P hd sL sR sn cn
    unfold edgeFluxT at hsw
    unfold facePairT at hs ⊢
    simp only [Bool.false_eq_true, if_false, Option.isSome_map] at hs ⊢
    cases h1 : usedTracerFlux sv P.g P.tinyH n (tracerVelocities P.tinyH sL) (tracerVelocities P.tinyH sR) sn cn with
    | none =>
      rw [h1] at hs
      simp only [Option.isSome_none, Option.isSome_eq_false_iff, Option.isNone_iff_eq_none] at hs
      rw [hs]
      simp
    | some F =>
      rw [h1] at hs
      obtain ⟨F', hF'⟩ := Option.isSome_iff_exists.mp hs
      rw [h1, hF'] at hsw
      rw [hF']
      exact ⟨hsw, hsw⟩
  | true =>
    have hsw := edgeFluxTHR_swap sv P hd zL zR sL sR sn cn
    unfold edgeFluxTHR at hsw
    unfold facePairT at hs ⊢
    simp only [if_true] at hs ⊢
    by_cases hw : sR.q.h < P.tinyH ∧ sL.q.h < P.tinyH
    · rw [if_pos hw, if_pos hw.symm]
      simp
    · have hw' : ¬ (sL.q.h < P.tinyH ∧ sR.q.h < P.tinyH) := fun h => hw h.symm
      rw [if_neg hw, if_neg hw', Option.isSome_map, Option.isSome_map] at hs
      rw [if_neg hw, if_neg hw'] at hsw
      rw [if_neg hw, if_neg hw']
      cases h1 : hrTFlux sv P n (hrTState P zL (max zL zR) sL) (hrTState P zR (max zL zR) sR) sn cn with
      | none =>
        rw [h1] at hs
        simp only [Option.isSome_none, Option.isSome_eq_false_iff, Option.isNone_iff_eq_none] at hs
        rw [hs]
        simp
      | some F =>
        rw [h1] at hs
        obtain ⟨F', hF'⟩ := Option.isSome_iff_exists.mp hs
        rw [h1, hF'] at hsw
        rw [hF']
        simp only [Option.map_some, Option.getD_some] at hsw ⊢
        rw [hrTCorrection_swap, hrTCorrection_swap, hsw, max_comm zR zL]
        constructor <;> ring

theorem localPairT_sees {Q : TProblem} {hr : Bool} {sv : TSolver} {P : FlowParams} {n np : ℕ}
    {pm : Fin np → PMesh} {bnd : Fin np → List TBEdge} {gid : Fin np → ℕ → ℕ} {owner : ℕ → Fin np}
    {src : Fin np → ℕ → ℕ → ℝ} {mann : Fin np → ℕ → ℝ} (hD : TDivides Q pm bnd gid owner src mann)
    (U : ℕ → TCons) (p : Fin np) {ge : GEdge} {le : IEdge} {r : ℕ}
    (hl : le.left < (pm p).numCells) (hrr : r < (pm p).numCells) (hr' : le.right = some r)
    (hs : Sees (gid p) ge le) :
    (gid p le.left = ge.c1 ∧ gid p r = ge.c2 ∧
      localPairT hr sv P n (pm p) (fun c => U (gid p c)) le r = Q.pair hr sv P n U ge) ∨
    (gid p le.left = ge.c2 ∧ gid p r = ge.c1 ∧
      localPairT hr sv P n (pm p) (fun c => U (gid p c)) le r =
        facePairT hr sv P n (Q.zc ge.c2) (Q.zc ge.c1) (U ge.c2) (U ge.c1) (-ge.sn) (-ge.cn)) := by
  obtain ⟨r', hre, -, hcase⟩ := hs
  rw [hr'] at hre
  simp only [Option.some.injEq] at hre
  subst hre
  rcases hcase with ⟨h1, h2, h3, h4⟩ | ⟨h1, h2, h3, h4⟩
  · left
    refine ⟨h1, h2, ?_⟩
    simp only [localPairT, TProblem.pair, hD.zc p _ hl, hD.zc p _ hrr, h1, h2, h3, h4]
  · right
    refine ⟨h1, h2, ?_⟩
    simp only [localPairT, hD.zc p _ hl, hD.zc p _ hrr, h1, h2, h3, h4]

theorem edgeCellT_sees {Q : TProblem} {hr : Bool} {sv : TSolver} {P : FlowParams} {n np d : ℕ} (hd : d < 3 + n)
    {pm : Fin np → PMesh} {bnd : Fin np → List TBEdge} {gid : Fin np → ℕ → ℕ} {owner : ℕ → Fin np}
    {src : Fin np → ℕ → ℕ → ℝ} {mann : Fin np → ℕ → ℝ} (hD : TDivides Q pm bnd gid owner src mann)
    (hv : ∀ p, EdgesValid (pm p)) (U : ℕ → TCons) (p : Fin np) {c : ℕ} (hc : c < (pm p).numCells)
    {ge : GEdge} {le : IEdge} (hle : le ∈ (pm p).internal) (hs : Sees (gid p) ge le) :
    edgeCellT hr sv P n (pm p) (fun c => U (gid p c)) c d le = Q.edgeTerm hr sv P n U (gid p c) d ge := by
  have hs' := hs
  obtain ⟨r, hre, hlen, -⟩ := hs'
  have hl := (hv p).left le hle
  have hrr := (hv p).right le hle r hre
  have iff1 : ∀ a, a < (pm p).numCells → (gid p a = gid p c ↔ a = c) := fun a ha =>
    ⟨fun h => hD.inj p a ha c hc h, fun h => by rw [h]⟩
  unfold edgeCellT TProblem.edgeTerm
  rw [hre]
  simp only
  rw [hlen, hD.area p c hc]
  rcases localPairT_sees (hr := hr) (sv := sv) (P := P) (n := n) hD U p hl hrr hre hs with
    ⟨h1, h2, h3⟩ | ⟨h1, h2, h3⟩
  · rw [h3, ← h1, ← h2]
    simp only [iff1 _ hl, iff1 _ hrr]
  · obtain ⟨s1, s2⟩ := facePairT_swap hr sv P hd (Q.zc ge.c1) (Q.zc ge.c2) (U ge.c1) (U ge.c2) ge.sn ge.cn
    unfold TProblem.pair
    rw [h3, s1, s2, ← h1, ← h2]
    simp only [iff1 _ hl, iff1 _ hrr]
    rw [add_comm]
    congr 1
    · by_cases hx : r = c
      · rw [if_pos hx, if_pos hx]; ring
      · rw [if_neg hx, if_neg hx]
    · by_cases hx : le.left = c
      · rw [if_pos hx, if_pos hx]; ring
      · rw [if_neg hx, if_neg hx]

/-! ### The flux divergence of a cell -/

/-- component `d` of what a local boundary edge contributes to the local cell `c` -/
noncomputable def bndCellT (sv : TSolver) (P : FlowParams) (n : ℕ) (pm : PMesh) (u : ℕ → TCons) (c d : ℕ)
    (e : TBEdge) : ℝ :=
  if e.cell = c then bndFluxT sv P n d u e * (-e.len / pm.area c) else 0

theorem tracerBEdge_cell {sv : TSolver} {P : FlowParams} {n : ℕ} {pm : PMesh} {bnd : List TBEdge}
    (hinj : OwnedInj pm) (hb : BndValid pm bnd) (u : ℕ → TCons) {c : ℕ} (hc : c < pm.numCells)
    (ho : pm.owned c = true) (d : ℕ) (f f' : ℕ → ℕ → ℝ) (e : TBEdge) (he : e ∈ bnd)
    (h : tracerBEdge sv P n pm u f e = some f') :
    f' (pm.l2o c) d = f (pm.l2o c) d + bndCellT sv P n pm u c d e := by
  unfold tracerBEdge at h
  unfold bndCellT
  by_cases hoe : pm.owned e.cell = true
  · rw [if_pos hoe] at h
    simp only [Option.map_eq_some_iff] at h
    obtain ⟨F, hF, rfl⟩ := h
    rw [addOwnedT_cell hinj _ hc ho (hb e he)]
    have hE : bndFluxT sv P n d u e = F d := by
      unfold bndFluxT
      rw [hF]
      rfl
    by_cases hx : e.cell = c
    · rw [if_pos hx, if_pos hx, hE, hx]
    · rw [if_neg hx, if_neg hx]
  · rw [if_neg hoe] at h
    simp only [Option.some.injEq] at h
    subst h
    have hx : e.cell ≠ c := fun hx => hoe (hx ▸ ho)
    rw [if_neg hx, add_zero]

theorem bndT_sum_eq {Q : TProblem} {sv : TSolver} {P : FlowParams} {n np : ℕ} {pm : Fin np → PMesh}
    {bnd : Fin np → List TBEdge} {gid : Fin np → ℕ → ℕ} {owner : ℕ → Fin np}
    {src : Fin np → ℕ → ℕ → ℝ} {mann : Fin np → ℕ → ℝ} (hD : TDivides Q pm bnd gid owner src mann)
    (U : ℕ → TCons) (p : Fin np) {c : ℕ} (hc : c < (pm p).numCells) (ho : (pm p).owned c = true)
    (hown : owner (gid p c) = p) (d : ℕ) :
    ((bnd p).map (bndCellT sv P n (pm p) (fun c => U (gid p c)) c d)).sum =
      (Q.bedges.map (Q.bndTerm sv P n U (gid p c) d)).sum := by
  have e1 : ((bnd p).map (bndCellT sv P n (pm p) (fun c => U (gid p c)) c d)).sum =
      (((bnd p).filter fun e => (pm p).owned e.cell).map
        (bndCellT sv P n (pm p) (fun c => U (gid p c)) c d)).sum := by
    generalize bnd p = L
    induction L with
    | nil => rfl
    | cons a L ih =>
      rw [List.filter_cons, List.map_cons, List.sum_cons, ih]
      by_cases ha : (pm p).owned a.cell = true
      · rw [if_pos ha]; rfl
      · rw [if_neg ha]
        have hx : a.cell ≠ c := fun hx => ha (hx ▸ ho)
        rw [bndCellT, if_neg hx, zero_add]
  have e2 : (((bnd p).filter fun e => (pm p).owned e.cell).map
      (bndCellT sv P n (pm p) (fun c => U (gid p c)) c d)) =
      ((((bnd p).filter fun e => (pm p).owned e.cell)).map
        fun e => ({ e with cell := gid p e.cell } : TBEdge)).map (Q.bndTerm sv P n U (gid p c) d) := by
    rw [List.map_map]
    apply List.map_congr_left
    intro e he
    have hmem := List.mem_of_mem_filter he
    have hlt := hD.bvalid p e hmem
    have iff1 : gid p e.cell = gid p c ↔ e.cell = c :=
      ⟨fun h => hD.inj p _ hlt c hc h, fun h => by rw [h]⟩
    simp only [Function.comp, bndCellT, TProblem.bndTerm, iff1, hD.area p c hc]
    rfl
  have e3 : ((Q.bedges.filter fun b => owner b.cell = p).map (Q.bndTerm sv P n U (gid p c) d)).sum =
      (Q.bedges.map (Q.bndTerm sv P n U (gid p c) d)).sum := by
    generalize Q.bedges = L
    induction L with
    | nil => rfl
    | cons a L ih =>
      rw [List.filter_cons, List.map_cons, List.sum_cons, ← ih]
      by_cases ha : owner a.cell = p
      · rw [if_pos (by simpa using ha)]; rfl
      · rw [if_neg (by simpa using ha)]
        have hx : a.cell ≠ gid p c := fun hx => ha (hx ▸ hown)
        rw [TProblem.bndTerm, if_neg hx, zero_add]
  rw [e1, e2, ((hD.bedges p).map _).sum_eq, e3]

theorem tracerFlux_cell {Q : TProblem} {hr : Bool} {sv : TSolver} {P : FlowParams} {n np d : ℕ}
    (hd : d < 3 + n) {pm : Fin np → PMesh} {bnd : Fin np → List TBEdge} {gid : Fin np → ℕ → ℕ}
    {owner : ℕ → Fin np} {seen : Fin np → GEdge → Bool} {src : Fin np → ℕ → ℕ → ℝ} {mann : Fin np → ℕ → ℝ}
    (hp : Partitioned np pm gid owner Q.edges seen) (hD : TDivides Q pm bnd gid owner src mann)
    (U : ℕ → TCons) (p : Fin np) {c : ℕ} (hc : c < (pm p).numCells) (ho : (pm p).owned c = true)
    {fd : ℕ → ℕ → ℝ} (h : tracerDiv hr sv P n (pm p) (bnd p) (fun c => U (gid p c)) = some fd) :
    fd ((pm p).l2o c) d = Q.div hr sv P n U (gid p c) d := by
  have hown := (hp.owned p c hc).mp ho
  rw [tracerDiv_fold, Option.bind_eq_some_iff] at h
  obtain ⟨f1, h1, h2⟩ := h
  have s1 := foldlM_sum (edgeStepT hr sv P n (pm p) fun c => U (gid p c)) (fun f => f ((pm p).l2o c) d)
    (edgeCellT hr sv P n (pm p) (fun c => U (gid p c)) c d) (pm p).internal _ _
    (fun f e f' he hs => edgeStepT_cell (hp.inj p) (hp.valid p) _ hc ho d f f' e he hs) h1
  have s2 := foldlM_sum (tracerBEdge sv P n (pm p) fun c => U (gid p c)) (fun f => f ((pm p).l2o c) d)
    (bndCellT sv P n (pm p) (fun c => U (gid p c)) c d) (bnd p) _ _
    (fun f e f' he hs => tracerBEdge_cell (hp.inj p) (hD.bvalid p) _ hc ho d f f' e he hs) h2
  rw [s2, s1, zero_add]
  unfold TProblem.div
  congr 1
  · apply local_sum_eq hp p
    · intro e he
      simp [edgeCellT, he]
    · intro ge _ le hle hs
      exact edgeCellT_sees hd hD hp.valid U p hc hle hs
    · intro ge _ n1 n2
      unfold TProblem.edgeTerm
      rw [if_neg (fun h : ge.c1 = gid p c => n1 (h ▸ hown)),
        if_neg (fun h : ge.c2 = gid p c => n2 (h ▸ hown)), add_zero]
  · exact bndT_sum_eq hD U p hc ho hown d

/-! ### The source operator, cell by cell -/

theorem tracerSourceFold_cell {P : FlowParams} {sl : Bool} {n : ℕ} {pm : PMesh} (hinj : OwnedInj pm) {dt : ℝ}
    {src : ℕ → ℕ → ℝ} {mann : ℕ → ℝ} {fd : ℕ → ℕ → ℝ} (u : ℕ → TCons) {c : ℕ} (hc : c < pm.numCells)
    (ho : pm.owned c = true) :
    ∀ (l : List ℕ), l.Nodup → (∀ c' ∈ l, c' < pm.numCells) → ∀ f f' : ℕ → ℕ → ℝ,
      l.foldlM (tracerSourceCell P sl n pm dt src mann fd u) f = some f' →
      (c ∉ l → f' (pm.l2o c) = f (pm.l2o c)) ∧
      (c ∈ l → (frictionSemiImplicit P dt (mann c) (u c).q (fd (pm.l2o c) 1) (fd (pm.l2o c) 2)
        (bedTerm P sl (pm.dzdx c) (pm.dzdy c) (u c).q.h).1
        (bedTerm P sl (pm.dzdx c) (pm.dzdy c) (u c).q.h).2).map (fun t d => f (pm.l2o c) d + (
          if d = 0 then src (pm.l2o c) 0
          else if d = 1 then -(bedTerm P sl (pm.dzdx c) (pm.dzdy c) (u c).q.h).1 - t.1 + src (pm.l2o c) 1
          else if d = 2 then -(bedTerm P sl (pm.dzdx c) (pm.dzdy c) (u c).q.h).2 - t.2 + src (pm.l2o c) 2
          else if d - 3 < n then tracerSource P (mann c) (u c) (src (pm.l2o c) d) (d - 3)
          else 0)) = some (f' (pm.l2o c)))
  | [], _, _, f, f', h => by
    simp only [List.foldlM_nil, pure, Option.some.injEq] at h
    subst h
    exact ⟨fun _ => rfl, fun h => absurd h (by simp)⟩
  | a :: l, hnd, hlt, f, f', h => by
    rw [List.nodup_cons] at hnd
    rw [List.foldlM_cons] at h
    cases hs : tracerSourceCell P sl n pm dt src mann fd u f a with
    | none => rw [hs] at h; simp at h
    | some f1 =>
      rw [hs] at h
      have h' : l.foldlM (tracerSourceCell P sl n pm dt src mann fd u) f1 = some f' := h
      obtain ⟨i1, i2⟩ := tracerSourceFold_cell hinj u hc ho l hnd.2
        (fun c' hc' => hlt c' (List.mem_cons_of_mem _ hc')) f1 f' h'
      have hkeep : a ≠ c → f1 (pm.l2o c) = f (pm.l2o c) := by
        intro hne
        unfold tracerSourceCell at hs
        by_cases hoa : pm.owned a = true
        · rw [if_pos hoa] at hs
          simp only [Option.map_eq_some_iff] at hs
          obtain ⟨t, -, rfl⟩ := hs
          funext d
          rw [addOwnedT_cell hinj _ hc ho (hlt a (by simp)), if_neg hne, add_zero]
        · rw [if_neg hoa] at hs
          simp only [Option.some.injEq] at hs
          rw [hs]
      constructor
      · intro hnot
        rw [List.mem_cons, not_or] at hnot
        rw [i1 hnot.2, hkeep (Ne.symm hnot.1)]
      · intro hin
        by_cases hac : a = c
        · subst hac
          rw [i1 hnd.1]
          unfold tracerSourceCell tracerManningIndex at hs
          rw [if_pos ho] at hs
          simp only [Option.map_eq_some_iff] at hs
          obtain ⟨t, ht, rfl⟩ := hs
          rw [ht, Option.map_some]
          congr 1
          funext d
          rw [addOwnedT_cell hinj _ hc ho hc, if_pos rfl, mul_one]
        · have hin' : c ∈ l := by
            rcases List.mem_cons.mp hin with h | h
            · exact absurd h.symm hac
            · exact h
          rw [← i2 hin', hkeep hac]

/-! ### C107, PETSc -/

/-- C107, partial: whatever the division among processes, the order of edges on each process and the side from which
each process sees an edge, the right-hand side of a run with tracers computed for an owned cell (water, momentum and
every tracer; either Riemann solver; with and without hydrostatic reconstruction) is the one given by the undivided
problem. Missing: divisions for which the roughness read for a cell is not its own
(`C107_roughness_violated`). -/
theorem C107_cell_partial {Q : TProblem} {hr : Bool} {sv : TSolver} {P : FlowParams} {n np : ℕ}
    {pm : Fin np → PMesh} {bnd : Fin np → List TBEdge} {gid : Fin np → ℕ → ℕ} {owner : ℕ → Fin np}
    {seen : Fin np → GEdge → Bool} {src : Fin np → ℕ → ℕ → ℝ} {mann : Fin np → ℕ → ℝ} {dt : ℝ}
    (hp : Partitioned np pm gid owner Q.edges seen) (hD : TDivides Q pm bnd gid owner src mann)
    (hm : OwnRoughness pm mann) (U : ℕ → TCons) (p : Fin np) {f : ℕ → ℕ → ℝ}
    (h : tracerRhs hr sv P n (pm p) (bnd p) dt (src p) (mann p) (fun c => U (gid p c)) = some f) {c : ℕ}
    (hc : c < (pm p).numCells) (ho : (pm p).owned c = true) :
    ∃ F, Q.rhs hr sv P n dt U (gid p c) = some F ∧ ∀ d < 3 + n, f ((pm p).l2o c) d = F d := by
  unfold tracerRhs at h
  rw [Option.bind_eq_some_iff] at h
  obtain ⟨fd, h1, h3⟩ := h
  have key : ∀ d < 3 + n, fd ((pm p).l2o c) d = Q.div hr sv P n U (gid p c) d := fun d hd =>
    tracerFlux_cell hd hp hD U p hc ho h1
  have hs := (tracerSourceFold_cell (hp.inj p) _ hc ho (List.range (pm p).numCells) List.nodup_range
    (fun c' hc' => List.mem_range.mp hc') fd f h3).2 (List.mem_range.mpr hc)
  rw [hm p c hc ho, hD.src p c hc ho, hD.mann p c hc ho, hD.dzdx p c hc, hD.dzdy p c hc, key 1 (by omega),
    key 2 (by omega), Option.map_eq_some_iff] at hs
  obtain ⟨t, ht, hf⟩ := hs
  unfold TProblem.rhs
  rw [ht]
  refine ⟨_, rfl, ?_⟩
  intro d hd
  rw [← hf]
  simp only [key d hd]
  by_cases h0 : d = 0
  · simp [h0]
  by_cases h1 : d = 1
  · simp [h1]
  by_cases h2 : d = 2
  · simp [h2]
  simp only [if_neg h0, if_neg h1, if_neg h2]
  rw [if_pos (by omega)]

/-- C107, partial: two divisions of the same problem, with any numbers of processes, give each cell the same
right-hand side. Missing as in `C107_cell_partial`. -/
theorem C107_independent_partial {Q : TProblem} {hr : Bool} {sv : TSolver} {P : FlowParams} {n np np' : ℕ}
    {pm : Fin np → PMesh} {bnd : Fin np → List TBEdge} {gid : Fin np → ℕ → ℕ} {owner : ℕ → Fin np}
    {seen : Fin np → GEdge → Bool} {src : Fin np → ℕ → ℕ → ℝ} {mann : Fin np → ℕ → ℝ}
    {pm' : Fin np' → PMesh} {bnd' : Fin np' → List TBEdge} {gid' : Fin np' → ℕ → ℕ} {owner' : ℕ → Fin np'}
    {seen' : Fin np' → GEdge → Bool} {src' : Fin np' → ℕ → ℕ → ℝ} {mann' : Fin np' → ℕ → ℝ} {dt : ℝ}
    (hp : Partitioned np pm gid owner Q.edges seen) (hD : TDivides Q pm bnd gid owner src mann)
    (hm : OwnRoughness pm mann) (hp' : Partitioned np' pm' gid' owner' Q.edges seen')
    (hD' : TDivides Q pm' bnd' gid' owner' src' mann') (hm' : OwnRoughness pm' mann')
    (U : ℕ → TCons) (p : Fin np) (p' : Fin np') {f f' : ℕ → ℕ → ℝ}
    (h : tracerRhs hr sv P n (pm p) (bnd p) dt (src p) (mann p) (fun c => U (gid p c)) = some f)
    (h' : tracerRhs hr sv P n (pm' p') (bnd' p') dt (src' p') (mann' p') (fun c => U (gid' p' c)) = some f')
    {c c' : ℕ} (hc : c < (pm p).numCells) (ho : (pm p).owned c = true) (hc' : c' < (pm' p').numCells)
    (ho' : (pm' p').owned c' = true) (hg : gid p c = gid' p' c') :
    ∀ d < 3 + n, f ((pm p).l2o c) d = f' ((pm' p').l2o c') d := by
  obtain ⟨F, e1, h1⟩ := C107_cell_partial hp hD hm U p h hc ho
  obtain ⟨F', e2, h2⟩ := C107_cell_partial hp' hD' hm' U p' h' hc' ho'
  rw [hg, e2] at e1
  simp only [Option.some.injEq] at e1
  intro d hd
  rw [h1 d hd, h2 d hd, e1]

theorem interiorT_isSome_iff (hr : Bool) (sv : TSolver) (P : FlowParams) (n : ℕ) (pm : PMesh) (u : ℕ → TCons)
    (f : ℕ → ℕ → ℝ) :
    (pm.internal.foldlM (edgeStepT hr sv P n pm u) f).isSome ↔
      ∀ e ∈ pm.internal, ∀ r, e.right = some r → (localPairT hr sv P n pm u e r).isSome := by
  apply foldlM_isSome_iff
  intro f e _
  cases h : e.right with
  | none => simp [edgeStepT_none h]
  | some r => simp [edgeStepT_isSome f h]

theorem boundaryT_isSome_iff (sv : TSolver) (P : FlowParams) (n : ℕ) (pm : PMesh) (bnd : List TBEdge)
    (u : ℕ → TCons) (f : ℕ → ℕ → ℝ) :
    (bnd.foldlM (tracerBEdge sv P n pm u) f).isSome ↔
      ∀ e ∈ bnd, pm.owned e.cell = true → bndDefinedT sv P n u e := by
  apply foldlM_isSome_iff
  intro f e _
  unfold tracerBEdge bndDefinedT
  by_cases h : pm.owned e.cell = true
  · rw [if_pos h, Option.isSome_map]
    simp [h]
  · rw [if_neg h]
    simp [h]

theorem sourceT_isSome_iff (P : FlowParams) (sl : Bool) (n : ℕ) (pm : PMesh) (dt : ℝ) (src : ℕ → ℕ → ℝ)
    (mann : ℕ → ℝ) (fd : ℕ → ℕ → ℝ) (u : ℕ → TCons) (f : ℕ → ℕ → ℝ) :
    (applyTracerSource P sl n pm dt src mann fd u f).isSome ↔
      ∀ c < pm.numCells, pm.owned c = true →
        (frictionSemiImplicit P dt (mann c) (u c).q (fd (pm.l2o c) 1) (fd (pm.l2o c) 2)
          (bedTerm P sl (pm.dzdx c) (pm.dzdy c) (u c).q.h).1
          (bedTerm P sl (pm.dzdx c) (pm.dzdy c) (u c).q.h).2).isSome := by
  have := foldlM_isSome_iff (tracerSourceCell P sl n pm dt src mann fd u)
    (fun c => pm.owned c = true →
      (frictionSemiImplicit P dt (mann c) (u c).q (fd (pm.l2o c) 1) (fd (pm.l2o c) 2)
        (bedTerm P sl (pm.dzdx c) (pm.dzdy c) (u c).q.h).1
        (bedTerm P sl (pm.dzdx c) (pm.dzdy c) (u c).q.h).2).isSome) (List.range pm.numCells) f ?_
  · unfold applyTracerSource
    rw [this]
    simp only [List.mem_range]
  · intro f c _
    unfold tracerSourceCell tracerManningIndex
    by_cases h : pm.owned c = true
    · rw [if_pos h, Option.isSome_map]
      simp [h]
    · rw [if_neg h]
      simp [h]

theorem fluxesT_defined {Q : TProblem} {hr : Bool} {sv : TSolver} {P : FlowParams} {n np : ℕ}
    {pm : Fin np → PMesh} {bnd : Fin np → List TBEdge} {gid : Fin np → ℕ → ℕ} {owner : ℕ → Fin np}
    {seen : Fin np → GEdge → Bool} {src : Fin np → ℕ → ℕ → ℝ} {mann : Fin np → ℕ → ℝ}
    (hp : Partitioned np pm gid owner Q.edges seen) (hD : TDivides Q pm bnd gid owner src mann)
    (U : ℕ → TCons) :
    Q.FluxesDefined hr sv P n U ↔
      ∀ p, (tracerDiv hr sv P n (pm p) (bnd p) (fun c => U (gid p c))).isSome := by
  have hdiv : ∀ p, (tracerDiv hr sv P n (pm p) (bnd p) (fun c => U (gid p c))).isSome ↔
      (∀ e ∈ (pm p).internal, ∀ r, e.right = some r →
        (localPairT hr sv P n (pm p) (fun c => U (gid p c)) e r).isSome) ∧
      ∀ e ∈ bnd p, (pm p).owned e.cell = true → bndDefinedT sv P n (fun c => U (gid p c)) e := by
    intro p
    rw [tracerDiv_fold, ← interiorT_isSome_iff hr sv P n (pm p) _ fun _ _ => 0]
    cases h1 : (pm p).internal.foldlM (edgeStepT hr sv P n (pm p) fun c => U (gid p c)) (fun _ _ => 0) with
    | none => simp
    | some f1 =>
      rw [Option.bind_some, boundaryT_isSome_iff]
      simp
  have hpair : ∀ (p : Fin np) (ge : GEdge) (le : IEdge) (r : ℕ), le ∈ (pm p).internal →
      le.right = some r → Sees (gid p) ge le →
      (localPairT hr sv P n (pm p) (fun c => U (gid p c)) le r).isSome = (Q.pair hr sv P n U ge).isSome := by
    intro p ge le r hle hre hs
    rcases localPairT_sees (hr := hr) (sv := sv) (P := P) (n := n) hD U p ((hp.valid p).left le hle)
      ((hp.valid p).right le hle r hre) hre hs with ⟨-, -, h3⟩ | ⟨-, -, h3⟩
    · rw [h3]
    · rw [h3, facePairT_isSome]
      rfl
  constructor
  · rintro ⟨hI, hB⟩ p
    rw [hdiv p]
    obtain ⟨l, hperm, hall⟩ := hp.edges p
    constructor
    · intro e he r hre
      have hel : e ∈ l := hperm.mem_iff.mpr (List.mem_filter.mpr ⟨he, by simp [hre]⟩)
      obtain ⟨ge, hge, hs⟩ := forall2_right hall e hel
      rw [hpair p ge e r he hre hs]
      exact hI ge (List.mem_of_mem_filter hge)
    · intro e he ho
      have hmem : ({ e with cell := gid p e.cell } : TBEdge) ∈
          (((bnd p).filter fun e => (pm p).owned e.cell)).map
            fun e => ({ e with cell := gid p e.cell } : TBEdge) :=
        List.mem_map.mpr ⟨e, List.mem_filter.mpr ⟨he, ho⟩, rfl⟩
      have := hB _ (List.mem_of_mem_filter ((hD.bedges p).mem_iff.mp hmem))
      exact this
  · intro H
    constructor
    · intro ge hge
      have hseen := hp.seen (owner ge.c1) ge hge (Or.inl rfl)
      obtain ⟨l, hperm, hall⟩ := hp.edges (owner ge.c1)
      obtain ⟨le, hle, hs⟩ := forall2_left hall ge (List.mem_filter.mpr ⟨hge, hseen⟩)
      have hle' := List.mem_of_mem_filter (hperm.mem_iff.mp hle)
      obtain ⟨r, hre, -⟩ := id hs
      rw [← hpair (owner ge.c1) ge le r hle' hre hs]
      exact ((hdiv _).mp (H (owner ge.c1))).1 le hle' r hre
    · intro b hb
      have key : ∀ p, b ∈ (Q.bedges.filter fun b' => owner b'.cell = p) → bndDefinedT sv P n U b := by
        intro p hmem
        obtain ⟨e, he, rfl⟩ := List.mem_map.mp ((hD.bedges p).mem_iff.mpr hmem)
        obtain ⟨he1, he2⟩ := List.mem_filter.mp he
        exact ((hdiv _).mp (H p)).2 e he1 he2
      exact key (owner b.cell) (List.mem_filter.mpr ⟨hb, by simp⟩)

/-- C107, partial: whether the right-hand side is made of numbers does not depend on the division either. Missing as
in `C107_cell_partial`. -/
theorem C107_defined_partial {Q : TProblem} {hr : Bool} {sv : TSolver} {P : FlowParams} {n np : ℕ}
    {pm : Fin np → PMesh} {bnd : Fin np → List TBEdge} {gid : Fin np → ℕ → ℕ} {owner : ℕ → Fin np}
    {seen : Fin np → GEdge → Bool} {src : Fin np → ℕ → ℕ → ℝ} {mann : Fin np → ℕ → ℝ} {dt : ℝ}
    (hp : Partitioned np pm gid owner Q.edges seen) (hD : TDivides Q pm bnd gid owner src mann)
    (hm : OwnRoughness pm mann) (U : ℕ → TCons) :
    (∀ p, (tracerRhs hr sv P n (pm p) (bnd p) dt (src p) (mann p) (fun c => U (gid p c))).isSome) ↔
      Q.FluxesDefined hr sv P n U ∧ ∀ γ < Q.N, (Q.rhs hr sv P n dt U γ).isSome := by
  rw [fluxesT_defined hp hD U]
  constructor
  · intro H
    constructor
    · intro p
      obtain ⟨f, hf⟩ := Option.isSome_iff_exists.mp (H p)
      unfold tracerRhs at hf
      rw [Option.bind_eq_some_iff] at hf
      obtain ⟨fd, h1, -⟩ := hf
      rw [h1]; rfl
    · intro γ hγ
      obtain ⟨c, hc, hg⟩ := hD.cover γ hγ
      have ho : (pm (owner γ)).owned c = true := (hp.owned _ c hc).mpr (by rw [hg])
      obtain ⟨f, hf⟩ := Option.isSome_iff_exists.mp (H (owner γ))
      obtain ⟨F, hF, -⟩ := C107_cell_partial hp hD hm U (owner γ) hf hc ho
      rw [hg] at hF
      rw [hF]; rfl
  · rintro ⟨H, HR⟩ p
    obtain ⟨fd, h1⟩ := Option.isSome_iff_exists.mp (H p)
    unfold tracerRhs
    rw [h1, Option.bind_some, sourceT_isSome_iff]
    intro c hc ho
    have hs := HR (gid p c) (hD.lt p c hc)
    unfold TProblem.rhs at hs
    rw [Option.isSome_map, ← tracerFlux_cell (d := 1) (by omega) hp hD U p hc ho h1,
      ← tracerFlux_cell (d := 2) (by omega) hp hD U p hc ho h1, ← hD.mann p c hc ho, ← hD.dzdx p c hc,
      ← hD.dzdy p c hc, ← hm p c hc ho] at hs
    exact hs

/-- One step of the explicit Euler method of a run with tracers: every process evaluates the right-hand side with
current ghost values and adds `dt` times it to its owned cells. -/
def TEulerStep {np : ℕ} (hr : Bool) (sv : TSolver) (P : FlowParams) (n : ℕ) (pm : Fin np → PMesh)
    (bnd : Fin np → List TBEdge) (gid : Fin np → ℕ → ℕ) (dt : ℝ) (src : Fin np → ℕ → ℕ → ℝ)
    (mann : Fin np → ℕ → ℝ) (U U' : ℕ → TCons) : Prop :=
  ∀ p, ∃ f, tracerRhs hr sv P n (pm p) (bnd p) dt (src p) (mann p) (fun c => U (gid p c)) = some f ∧
    ∀ c < (pm p).numCells, (pm p).owned c = true →
      (U' (gid p c)).q.h = (U (gid p c)).q.h + dt * f ((pm p).l2o c) 0 ∧
      (U' (gid p c)).q.hu = (U (gid p c)).q.hu + dt * f ((pm p).l2o c) 1 ∧
      (U' (gid p c)).q.hv = (U (gid p c)).q.hv + dt * f ((pm p).l2o c) 2 ∧
      ∀ j < n, (U' (gid p c)).hc j = (U (gid p c)).hc j + dt * f ((pm p).l2o c) (3 + j)

/-- One explicit Euler step of the undivided problem. -/
def TProblem.Step (Q : TProblem) (hr : Bool) (sv : TSolver) (P : FlowParams) (n : ℕ) (dt : ℝ)
    (U U' : ℕ → TCons) : Prop :=
  Q.FluxesDefined hr sv P n U ∧ ∀ γ < Q.N, ∃ F, Q.rhs hr sv P n dt U γ = some F ∧
    (U' γ).q.h = (U γ).q.h + dt * F 0 ∧ (U' γ).q.hu = (U γ).q.hu + dt * F 1 ∧
    (U' γ).q.hv = (U γ).q.hv + dt * F 2 ∧ ∀ j < n, (U' γ).hc j = (U γ).hc j + dt * F (3 + j)

theorem teuler_iff {Q : TProblem} {hr : Bool} {sv : TSolver} {P : FlowParams} {n np : ℕ}
    {pm : Fin np → PMesh} {bnd : Fin np → List TBEdge} {gid : Fin np → ℕ → ℕ} {owner : ℕ → Fin np}
    {seen : Fin np → GEdge → Bool} {src : Fin np → ℕ → ℕ → ℝ} {mann : Fin np → ℕ → ℝ} {dt : ℝ}
    (hp : Partitioned np pm gid owner Q.edges seen) (hD : TDivides Q pm bnd gid owner src mann)
    (hm : OwnRoughness pm mann) (U U' : ℕ → TCons) :
    TEulerStep hr sv P n pm bnd gid dt src mann U U' ↔ Q.Step hr sv P n dt U U' := by
  constructor
  · intro h
    have hdef := (C107_defined_partial (hr := hr) (sv := sv) (P := P) (n := n) (dt := dt) hp hD hm U).mp
      fun p => by
        obtain ⟨f, hf, -⟩ := h p
        rw [hf]; rfl
    refine ⟨hdef.1, ?_⟩
    intro γ hγ
    obtain ⟨c, hc, hg⟩ := hD.cover γ hγ
    have ho : (pm (owner γ)).owned c = true := (hp.owned _ c hc).mpr (by rw [hg])
    obtain ⟨f, hf, hU⟩ := h (owner γ)
    obtain ⟨F, hF, hd⟩ := C107_cell_partial hp hD hm U (owner γ) hf hc ho
    rw [hg] at hF
    have hx := hU c hc ho
    rw [hg, hd 0 (by omega), hd 1 (by omega), hd 2 (by omega)] at hx
    refine ⟨F, hF, hx.1, hx.2.1, hx.2.2.1, fun j hj => ?_⟩
    rw [hx.2.2.2 j hj, hd (3 + j) (by omega)]
  · rintro ⟨h1, h2⟩ p
    obtain ⟨f, hf⟩ := Option.isSome_iff_exists.mp
      ((C107_defined_partial (hr := hr) (sv := sv) (P := P) (n := n) (dt := dt) hp hD hm U).mpr
        ⟨h1, fun γ hγ => by
          obtain ⟨F, hF, -⟩ := h2 γ hγ
          rw [hF]; rfl⟩ p)
    refine ⟨f, hf, ?_⟩
    intro c hc ho
    obtain ⟨F, hF, hU⟩ := h2 (gid p c) (hD.lt p c hc)
    obtain ⟨F', hF', hd⟩ := C107_cell_partial hp hD hm U p hf hc ho
    rw [hF'] at hF
    simp only [Option.some.injEq] at hF
    subst hF
    rw [hd 0 (by omega), hd 1 (by omega), hd 2 (by omega)]
    refine ⟨hU.1, hU.2.1, hU.2.2.1, fun j hj => ?_⟩
    rw [hU.2.2.2 j hj, hd (3 + j) (by omega)]

/-- C107, partial: a sequence of states — depths, momenta and all tracers — is a run of the explicit Euler method on
one division of the mesh among processes if and only if it is one on another. Sources, roughness and prescribed
boundary values may change from step to step. Missing as in `C107_cell_partial`. -/
theorem C107_run_partial {Q : ℕ → TProblem} {hr : Bool} {sv : TSolver} {P : FlowParams} {n np np' : ℕ}
    {pm : ℕ → Fin np → PMesh} {bnd : ℕ → Fin np → List TBEdge} {gid : Fin np → ℕ → ℕ} {owner : ℕ → Fin np}
    {seen : Fin np → GEdge → Bool} {src : ℕ → Fin np → ℕ → ℕ → ℝ} {mann : ℕ → Fin np → ℕ → ℝ}
    {pm' : ℕ → Fin np' → PMesh} {bnd' : ℕ → Fin np' → List TBEdge} {gid' : Fin np' → ℕ → ℕ}
    {owner' : ℕ → Fin np'} {seen' : Fin np' → GEdge → Bool} {src' : ℕ → Fin np' → ℕ → ℕ → ℝ}
    {mann' : ℕ → Fin np' → ℕ → ℝ}
    (hp : ∀ i, Partitioned np (pm i) gid owner (Q i).edges seen)
    (hD : ∀ i, TDivides (Q i) (pm i) (bnd i) gid owner (src i) (mann i)) (hm : ∀ i, OwnRoughness (pm i) (mann i))
    (hp' : ∀ i, Partitioned np' (pm' i) gid' owner' (Q i).edges seen')
    (hD' : ∀ i, TDivides (Q i) (pm' i) (bnd' i) gid' owner' (src' i) (mann' i))
    (hm' : ∀ i, OwnRoughness (pm' i) (mann' i)) (dt : ℕ → ℝ) (U : ℕ → ℕ → TCons) (K : ℕ) :
    (∀ i < K, TEulerStep hr sv P n (pm i) (bnd i) gid (dt i) (src i) (mann i) (U i) (U (i + 1))) ↔
      ∀ i < K, TEulerStep hr sv P n (pm' i) (bnd' i) gid' (dt i) (src' i) (mann' i) (U i) (U (i + 1)) := by
  apply forall_congr'
  intro i
  rw [teuler_iff (hp i) (hD i) (hm i), teuler_iff (hp' i) (hD' i) (hm' i)]

/-! ### Examples: the two cells of `exMesh` with two tracers, on two processes and on one -/

/-- the problem of `exProblem` with two tracers: rain and a source of tracer 0 in cell 0, the same roughness in both
cells -/
noncomputable def exTProblem : TProblem where
  N := 2
  area _ := 1 / 2
  zc _ := 0
  dzdx _ := 0
  dzdy _ := 0
  src γ d := if γ = 0 ∧ (d = 0 ∨ d = 3) then 1e-3 else 0
  mann _ := 0.03
  edges := [⟨0, 1, 1, 0, 1⟩]
  bedges := [⟨0, 1, 0, -1, .reflecting⟩, ⟨1, 1, 0, 1, .dirichlet ⟨⟨2, 0, 0⟩, fun _ => 3⟩⟩]

/-- the boundary edges of the two processes -/
noncomputable def exTBnd2 (p : Fin 2) : List TBEdge :=
  if p = 0 then [⟨0, 1, 0, -1, .reflecting⟩] else [⟨0, 1, 0, 1, .dirichlet ⟨⟨2, 0, 0⟩, fun _ => 3⟩⟩]

theorem exTDivides2 : TDivides exTProblem exMesh exTBnd2 exGid (fun c => if c = 0 then 0 else 1)
    (fun p _ => exTProblem.src p) (fun _ _ => 0.03) where
  lt p c hc := by
    simp only [exMesh, exTProblem] at *
    unfold exGid
    split <;> omega
  inj p c hc c' hc' h := by
    simp only [exMesh] at hc hc'
    unfold exGid at h
    split at h <;> omega
  cover γ hγ := by
    simp only [exTProblem] at hγ
    refine ⟨0, by norm_num [exMesh], ?_⟩
    interval_cases γ <;> simp [exGid]
  area _ _ _ := rfl
  zc _ _ _ := rfl
  dzdx _ _ _ := rfl
  dzdy _ _ _ := rfl
  src p c _ ho := by
    simp only [exMesh, beq_iff_eq] at ho
    subst ho
    fin_cases p <;> simp [exGid]
  mann _ _ _ _ := rfl
  bvalid p e he := by
    fin_cases p <;> simp [exTBnd2] at he <;> subst he <;> simp [exMesh]
  bedges p := by
    fin_cases p <;> simp [exMesh, exTProblem, exGid, exTBnd2]

theorem exTDivides1 : TDivides exTProblem (fun _ : Fin 1 => exWhole) (fun _ => exTProblem.bedges) (fun _ c => c)
    (fun _ => 0) (fun _ c => exTProblem.src c) (fun _ _ => 0.03) where
  lt p c hc := hc
  inj p c hc c' hc' h := h
  cover γ hγ := ⟨γ, hγ, rfl⟩
  area _ _ _ := rfl
  zc _ _ _ := rfl
  dzdx _ _ _ := rfl
  dzdy _ _ _ := rfl
  src p c _ ho := rfl
  mann p c _ ho := rfl
  bvalid p e he := by
    simp only [exTProblem, List.mem_cons, List.not_mem_nil, or_false] at he
    rcases he with rfl | rfl <;> simp [exWhole]
  bedges p := by
    have hp : p = 0 := Subsingleton.elim _ _
    subst hp
    simp [exWhole, exTProblem]

/-- A step with two tracers on one process (where the edge is seen from the other side) exists from every state with
non-negative depths, and the same states are a step on two processes. -/
example (sv : TSolver) (U : ℕ → TCons) (hU : ∀ c, 0 ≤ (U c).q.h) :
    ∃ U', TEulerStep false sv exParams 2 (fun _ : Fin 1 => exWhole) (fun _ => exTProblem.bedges) (fun _ c => c) 0.5
        (fun _ c => exTProblem.src c) (fun _ _ => 0.03) U U' ∧
      TEulerStep false sv exParams 2 exMesh exTBnd2 exGid 0.5 (fun p _ => exTProblem.src p) (fun _ _ => 0.03)
        U U' := by
  have hg : 0 < exParams.g := by norm_num [exParams]
  have ht : 0 < exParams.tinyH := by norm_num [exParams]
  have h1 : (tracerDiv false sv exParams 2 exWhole exTProblem.bedges U).isSome :=
    C39_tracer_defined sv 2 exWhole exTProblem.bedges U ht hU (by
      intro e he
      simp only [exTProblem, List.mem_cons, List.not_mem_nil, or_false] at he
      rcases he with rfl | rfl
      · trivial
      · show (0 : ℝ) ≤ 2
        norm_num)
  obtain ⟨fd, hfd⟩ := Option.isSome_iff_exists.mp h1
  have h2 : (tracerRhs false sv exParams 2 exWhole exTProblem.bedges 0.5 (fun c => exTProblem.src c)
      (fun _ => 0.03) U).isSome := by
    unfold tracerRhs
    rw [hfd, Option.bind_some, sourceT_isSome_iff]
    intro c _ _
    exact friction_isSome .semiImplicit 0.03 _ _ _ _ _ hg ht (by norm_num [exParams]) (by norm_num)
  obtain ⟨f, hf⟩ := Option.isSome_iff_exists.mp h2
  have h3 : TEulerStep false sv exParams 2 (fun _ : Fin 1 => exWhole) (fun _ => exTProblem.bedges) (fun _ c => c) 0.5
      (fun _ c => exTProblem.src c) (fun _ _ => 0.03) U
      (fun c => ⟨⟨(U c).q.h + 0.5 * f c 0, (U c).q.hu + 0.5 * f c 1, (U c).q.hv + 0.5 * f c 2⟩,
        fun j => (U c).hc j + 0.5 * f c (3 + j)⟩) :=
    fun _ => ⟨f, hf, fun c _ _ => ⟨rfl, rfl, rfl, fun _ _ => rfl⟩⟩
  refine ⟨_, h3, ?_⟩
  rw [teuler_iff exPartitioned exTDivides2 (fun _ _ _ _ => rfl)]
  exact (teuler_iff (Q := exTProblem) exPartitioned1 exTDivides1 (fun _ _ _ _ => rfl) _ _).mp h3

/-! ### Where the roughness of another cell is read -/

/-- three separate pools (no edge between them): process 0 owns cell 0; process 1 has cell 0 as a ghost, before its
own cells 1 and 2 -/
noncomputable def exPools (p : Fin 2) : PMesh where
  numCells := if p = 0 then 1 else 3
  area _ := 1
  owned c := if p = 0 then true else c != 0
  l2o c := if p = 0 then c else if c = 0 then 2 else c - 1
  internal := []
  boundary := []
  dzdx _ := 0
  dzdy _ := 0
  zc _ := 0

/-- the undivided problem: cell 2 is rougher than the others -/
noncomputable def exPoolProblem : TProblem where
  N := 3
  area _ := 1
  zc _ := 0
  dzdx _ := 0
  dzdy _ := 0
  src _ _ := 0
  mann γ := if γ = 2 then 0.1 else 0.03
  edges := []
  bedges := []

/-- `local_to_owned` of the example is what `numberCells` computes -/
example : ∀ c < 3, (numberCells (exPools 1).owned 3).l2o c = (exPools 1).l2o c := by
  intro c hc
  interval_cases c <;> simp [exPools, numberCells, numOwnedStep, numGhostStep, NumState.init, List.range_succ]

theorem exPools_partitioned : Partitioned 2 exPools (fun _ c => c) (fun c => if c = 0 then 0 else 1)
    exPoolProblem.edges (fun _ _ => true) where
  valid p := by
    refine ⟨?_, ?_, ?_, ?_⟩ <;> simp [exPools]
  inj p := by
    intro c hc c' hc' ho ho' h
    fin_cases p
    · simpa [exPools] using h
    · simp [exPools] at ho ho' h
      rw [if_neg ho, if_neg ho'] at h
      omega
  owned p c hc := by
    fin_cases p
    · simp [exPools] at hc ⊢
      exact hc
    · simp [exPools]
  edges p := ⟨[], by simp [exPools], by simp [exPoolProblem]⟩
  seen _ _ _ _ := rfl

theorem exPools_divides : TDivides exPoolProblem exPools (fun _ => []) (fun _ c => c)
    (fun c => if c = 0 then 0 else 1) (fun _ _ _ => 0)
    (fun p i => exPoolProblem.mann (if p = 0 then i else i + 1)) where
  lt p c hc := by
    fin_cases p <;> simp [exPools, exPoolProblem] at *
    · omega
    · omega
  inj _ _ _ _ _ h := h
  cover γ hγ := by
    simp only [exPoolProblem] at hγ
    refine ⟨γ, ?_, rfl⟩
    by_cases h : γ = 0
    · subst h; simp [exPools]
    · simp [exPools, h, hγ]
  area _ _ _ := rfl
  zc _ _ _ := rfl
  dzdx _ _ _ := rfl
  dzdy _ _ _ := rfl
  src _ _ _ _ := rfl
  mann p c hc ho := by
    fin_cases p
    · simp [exPools]
    · simp [exPools] at ho
      simp only [exPools]
      norm_num [ho]
      congr 1
      omega
  bvalid _ _ he := by simp at he
  bedges p := by simp [exPoolProblem]

/-- C107 is violated where a ghost cell precedes an owned one and the roughness varies: of three pools with moving
water the second, on process 1, erodes with the roughness of the third — the right-hand side of its sediment is not
that of the undivided problem (nor, therefore, that of a run on one process). -/
theorem C107_roughness_violated (hr : Bool) (sv : TSolver) :
    TDivides exPoolProblem exPools (fun _ => []) (fun _ c => c) (fun c => if c = 0 then 0 else 1) (fun _ _ _ => 0)
      (fun p i => exPoolProblem.mann (if p = 0 then i else i + 1)) ∧
    Partitioned 2 exPools (fun _ c => c) (fun c => if c = 0 then 0 else 1) exPoolProblem.edges (fun _ _ => true) ∧
    ∃ f F, tracerRhs hr sv exParams 1 (exPools 1) [] 0.5 (fun _ _ => 0) (fun i => exPoolProblem.mann (i + 1))
        (fun _ => ⟨⟨1, 1, 0⟩, fun _ => 0⟩) = some f ∧
      exPoolProblem.rhs hr sv exParams 1 0.5 (fun _ => ⟨⟨1, 1, 0⟩, fun _ => 0⟩) 1 = some F ∧
      F 3 < f ((exPools 1).l2o 1) 3 := by
  refine ⟨exPools_divides, exPools_partitioned, ?_⟩
  have hg : 0 < exParams.g := by norm_num [exParams]
  have ht : 0 < exParams.tinyH := by norm_num [exParams]
  have hfr : ∀ n Fx Fy bx bY, (frictionSemiImplicit exParams 0.5 n ⟨1, 1, 0⟩ Fx Fy bx bY).isSome := fun n Fx Fy bx bY =>
    friction_isSome .semiImplicit n _ _ _ _ _ hg ht (by norm_num [exParams]) (by norm_num)
  have hdiv : tracerDiv hr sv exParams 1 (exPools 1) [] (fun _ => ⟨⟨1, 1, 0⟩, fun _ => 0⟩) =
      some fun _ _ => 0 := by
    rw [tracerDiv_fold]
    rfl
  have h2 : (tracerRhs hr sv exParams 1 (exPools 1) [] 0.5 (fun _ _ => 0) (fun i => exPoolProblem.mann (i + 1))
      (fun _ => ⟨⟨1, 1, 0⟩, fun _ => 0⟩)).isSome := by
    unfold tracerRhs
    rw [hdiv, Option.bind_some, sourceT_isSome_iff]
    intro c _ _
    exact hfr ..
  obtain ⟨f, hf⟩ := Option.isSome_iff_exists.mp h2
  have hf' := hf
  unfold tracerRhs at hf'
  rw [hdiv, Option.bind_some] at hf'
  have hs := (tracerSourceFold_cell (exPools_partitioned.inj 1) (c := 1) _ (by simp [exPools]) (by simp [exPools])
    (List.range (exPools 1).numCells) List.nodup_range (fun c' hc' => List.mem_range.mp hc') _ f hf').2
    (by simp [exPools])
  rw [Option.map_eq_some_iff] at hs
  obtain ⟨t, -, hft⟩ := hs
  obtain ⟨t', ht'⟩ := Option.isSome_iff_exists.mp (hfr (exPoolProblem.mann 1) (exPoolProblem.div hr sv exParams 1
    (fun _ => ⟨⟨1, 1, 0⟩, fun _ => 0⟩) 1 1) (exPoolProblem.div hr sv exParams 1
    (fun _ => ⟨⟨1, 1, 0⟩, fun _ => 0⟩) 1 2) (bedTerm exParams (!hr) (exPoolProblem.dzdx 1) (exPoolProblem.dzdy 1) 1).1
    (bedTerm exParams (!hr) (exPoolProblem.dzdx 1) (exPoolProblem.dzdy 1) 1).2)
  have hF : ∃ F, exPoolProblem.rhs hr sv exParams 1 0.5 (fun _ => ⟨⟨1, 1, 0⟩, fun _ => 0⟩) 1 = some F ∧
      F 3 = tracerSource exParams 0.03 ⟨⟨1, 1, 0⟩, fun _ => 0⟩ 0 0 := by
    unfold TProblem.rhs
    rw [ht']
    refine ⟨_, rfl, ?_⟩
    simp [TProblem.div, exPoolProblem]
  obtain ⟨F, hF, hF3⟩ := hF
  refine ⟨f, F, hf, hF, ?_⟩
  rw [hF3, ← hft]
  simp only [exPoolProblem]
  norm_num [tracerSource, erosionDeposition, exParams]

/-! ### CEED -/

/-- What the two cells of an edge lose and gain per unit length with CEED. -/
noncomputable def facePairTCeed (hr : Bool) (sv : TSolver) (P : FlowParams) (n : ℕ) (zL zR : ℝ) (sL sR : TCons)
    (sn cn : ℝ) : Option ((ℕ → ℝ) × (ℕ → ℝ)) :=
  if hr then
    if sL.q.h > P.tinyH ∨ sR.q.h > P.tinyH then
      (hrTFluxCeed P n zL zR sL sR sn cn).map fun F =>
        (fun d => F d + hrTCorrection P sL.q.h (hrTStateCeed P zL (max zL zR) sL).q.h sn cn d,
         fun d => F d + hrTCorrection P sR.q.h (hrTStateCeed P zR (max zL zR) sR).q.h sn cn d)
    else some (fun _ => 0, fun _ => 0)
  else (tracerFluxCeed sv P.g P.tinyH n sL sR sn cn).map fun F => (F, F)

/-- There is no front of water that carries tracers between two cells, whichever is the left one: with hydrostatic
reconstruction (then with Roe's solver) both reconstructed depths exceed the dry threshold or neither does. -/
def TNoFront (hr : Bool) (sv : TSolver) (P : FlowParams) (zL zR : ℝ) (sL sR : TCons) : Prop :=
  if hr then sv = .roe ∧ 0 ≤ sL.q.h ∧ 0 ≤ sR.q.h ∧ sL.q.h ≠ P.tinyH ∧ sR.q.h ≠ P.tinyH ∧ TAgreeHR P zL zR sL sR
  else TAgree P.tinyH sL sR ∧ TAgree P.tinyH sR sL

theorem TNoFront.symm {hr : Bool} {sv : TSolver} {P : FlowParams} {zL zR : ℝ} {sL sR : TCons}
    (h : TNoFront hr sv P zL zR sL sR) : TNoFront hr sv P zR zL sR sL := by
  unfold TNoFront at *
  cases hr with
  | false =>
    simp only [Bool.false_eq_true, if_false] at *
    exact h.symm
  | true =>
    simp only [if_true] at *
    obtain ⟨h1, h2, h3, h4, h5, h6⟩ := h
    refine ⟨h1, h3, h2, h5, h4, ?_⟩
    unfold TAgreeHR at *
    rw [max_comm zR zL]
    rcases h6 with h | h
    · exact Or.inl h.symm
    · exact Or.inr h.symm

theorem facePairTCeed_eq {hr : Bool} {sv : TSolver} {P : FlowParams} (n : ℕ) {zL zR : ℝ} {sL sR : TCons}
    (sn cn : ℝ) (hg : 0 ≤ P.g) (ht : 0 < P.tinyH) (h : TNoFront hr sv P zL zR sL sR) :
    facePairTCeed hr sv P n zL zR sL sR sn cn = facePairT hr sv P n zL zR sL sR sn cn := by
  unfold facePairTCeed facePairT
  unfold TNoFront at h
  cases hr with
  | false =>
    simp only [Bool.false_eq_true, if_false] at *
    rw [C104_flux_partial sv n sL sR sn cn hg ht h.1]
  | true =>
    simp only [if_true] at *
    obtain ⟨rfl, h2, h3, h4, h5, h6⟩ := h
    by_cases hw : sL.q.h > P.tinyH ∨ sR.q.h > P.tinyH
    · have hw' : ¬ (sR.q.h < P.tinyH ∧ sL.q.h < P.tinyH) := by
        rintro ⟨a, b⟩
        rcases hw with h | h <;> linarith
      rw [if_pos hw, if_neg hw', hrTFluxCeed_agree n _ _ _ _ sn cn hg ht h2 h6]
      rfl
    · rw [if_neg hw]
      rw [not_or, not_lt, not_lt] at hw
      rw [if_pos ⟨lt_of_le_of_ne hw.2 h5, lt_of_le_of_ne hw.1 h4⟩]

/-- A division of the problem as CEED sees it (as `CeedDivides`): every interior edge and every boundary edge is owned
by one process, which lists the edges it owns in any order and seen from either side. -/
structure TCeedDivides (Q : TProblem) {np : ℕ} (pm : Fin np → PMesh) (bnd : Fin np → List TBEdge)
    (gid : Fin np → ℕ → ℕ) (eowner : GEdge → Fin np) (bowner : TBEdge → Fin np) : Prop where
  valid : ∀ p, EdgesValid (pm p)
  bvalid : ∀ p, BndValid (pm p) (bnd p)
  area : ∀ p, ∀ c < (pm p).numCells, (pm p).area c = Q.area (gid p c)
  zc : ∀ p, ∀ c < (pm p).numCells, (pm p).zc c = Q.zc (gid p c)
  edges : ∀ p, ∃ l, List.Perm l ((pm p).internal.filter fun e => e.right.isSome) ∧
    List.Forall₂ (Sees (gid p)) (Q.edges.filter fun e => eowner e = p) l
  bedges : ∀ p, List.Perm ((bnd p).map fun e => { e with cell := gid p e.cell })
    (Q.bedges.filter fun b => bowner b = p)

/-- `DMLocalToGlobal` with `ADD_VALUES` for component `d` of a vector with tracers: the global entry is the sum of all
local entries that represent it. -/
noncomputable def localToGlobalAddT {np : ℕ} (numCells : Fin np → ℕ) (gid : Fin np → ℕ → ℕ)
    (f : Fin np → ℕ → ℕ → ℝ) (γ d : ℕ) : ℝ :=
  ∑ p, ∑ i ∈ range (numCells p), if gid p i = γ then f p i d else 0

/-- No front at any edge of the undivided problem, and prescribed boundary states that both backends understand; no
depth is exactly the dry threshold. -/
structure TProblem.NoFronts (Q : TProblem) (hr : Bool) (sv : TSolver) (P : FlowParams) (U : ℕ → TCons) : Prop where
  edges : ∀ e ∈ Q.edges, TNoFront hr sv P (Q.zc e.c1) (Q.zc e.c2) (U e.c1) (U e.c2)
  bedges : ∀ e ∈ Q.bedges, (U e.cell).q.h ≠ P.tinyH ∧ TRegularEdge P (U e.cell) e

/-- component `d` of what a local vector adds to the global cell `γ` -/
noncomputable def entryOfT (N : ℕ) (gid : ℕ → ℕ) (γ d : ℕ) (f : ℕ → ℕ → ℝ) : ℝ :=
  ∑ i ∈ range N, if gid i = γ then f i d else 0

theorem entryOfT_addAtT {N : ℕ} (gid : ℕ → ℕ) (γ d : ℕ) (f : ℕ → ℕ → ℝ) {j : ℕ} (hj : j < N) (F : ℕ → ℝ) (s : ℝ) :
    entryOfT N gid γ d (addAtT f j F s) = entryOfT N gid γ d f + if gid j = γ then F d * s else 0 := by
  unfold entryOfT
  have : ∀ i ∈ range N, (if gid i = γ then addAtT f j F s i d else 0) =
      (if gid i = γ then f i d else 0) + if i = j then (if gid j = γ then F d * s else 0) else 0 := by
    intro i _
    unfold addAtT
    by_cases e : i = j
    · subst e
      by_cases h : gid i = γ <;> simp [h]
    · simp [e]
  rw [sum_congr rfl this, sum_add_distrib, sum_ite_eq' (range N) j]
  simp [hj]

/-- component `d` of what a local edge adds to the global cell `γ` with CEED (owned cells first) -/
noncomputable def ceedTermT (hr : Bool) (sv : TSolver) (P : FlowParams) (n : ℕ) (pm : PMesh) (gid : ℕ → ℕ)
    (u : ℕ → TCons) (γ d : ℕ) (e : IEdge) : ℝ :=
  match e.right with
  | none => 0
  | some r =>
    (if gid e.left = γ then
      ((facePairTCeed hr sv P n (pm.zc e.left) (pm.zc r) (u e.left) (u r) e.sn e.cn).getD
        (fun _ => 0, fun _ => 0)).1 d * (-e.len / pm.area e.left) else 0) +
    if gid r = γ then
      ((facePairTCeed hr sv P n (pm.zc e.left) (pm.zc r) (u e.left) (u r) e.sn e.cn).getD
        (fun _ => 0, fun _ => 0)).2 d * (e.len / pm.area r) else 0

theorem ceedTStep_entry {hr : Bool} {sv : TSolver} {P : FlowParams} {n : ℕ} {pm : PMesh} (hv : EdgesValid pm)
    (hf : OwnedFirst pm) (gid : ℕ → ℕ) (u : ℕ → TCons) (γ d : ℕ) (f f' : ℕ → ℕ → ℝ) (e : IEdge)
    (he : e ∈ pm.internal)
    (h : (if hr then ceedTEdgeHR P n pm u else ceedTEdge sv P n pm u) f e = some f') :
    entryOfT pm.numCells gid γ d f' =
      entryOfT pm.numCells gid γ d f + ceedTermT hr sv P n pm gid u γ d e := by
  unfold ceedTermT
  cases hre : e.right with
  | none =>
    cases hr <;> simp only [Bool.false_eq_true, if_false, if_true, ceedTEdge, ceedTEdgeHR, hre,
      Option.some.injEq] at h <;> subst h <;> simp
  | some r =>
    have hl := hv.left e he
    have hrr := hv.right e he r hre
    have hl' : pm.l2o e.left < pm.numCells := by rw [hf _ hl]; exact hl
    have hrr' : pm.l2o r < pm.numCells := by rw [hf _ hrr]; exact hrr
    cases hr with
    | false =>
      simp only [Bool.false_eq_true, if_false, ceedTEdge, hre, Option.map_eq_some_iff] at h
      obtain ⟨F, hF, rfl⟩ := h
      rw [entryOfT_addAtT gid γ d _ hrr', entryOfT_addAtT gid γ d _ hl', add_assoc, hf _ hl, hf _ hrr]
      simp only [facePairTCeed, Bool.false_eq_true, if_false, hF, Option.map_some, Option.getD_some]
    | true =>
      simp only [if_true, ceedTEdgeHR, hre] at h
      simp only [facePairTCeed, if_true]
      by_cases hw : (u e.left).q.h > P.tinyH ∨ (u r).q.h > P.tinyH
      · rw [if_pos hw, Option.map_eq_some_iff] at h
        obtain ⟨F, hF, rfl⟩ := h
        rw [entryOfT_addAtT gid γ d _ hrr', entryOfT_addAtT gid γ d _ hl', add_assoc, hf _ hl, hf _ hrr]
        simp only [if_pos hw, hF, Option.map_some, Option.getD_some]
      · rw [if_neg hw] at h
        simp only [Option.some.injEq] at h
        subst h
        simp [if_neg hw]

theorem ceedTBStep_entry {sv : TSolver} {P : FlowParams} {n : ℕ} {pm : PMesh} {bnd : List TBEdge}
    (hv : BndValid pm bnd) (hf : OwnedFirst pm) (gid : ℕ → ℕ) (u : ℕ → TCons) (γ d : ℕ) (f f' : ℕ → ℕ → ℝ)
    (e : TBEdge) (he : e ∈ bnd) (h : ceedTBEdge sv P n pm u f e = some f') :
    entryOfT pm.numCells gid γ d f' = entryOfT pm.numCells gid γ d f +
      if gid e.cell = γ then (boundaryTFluxCeed sv P n e.bc (u e.cell) e.sn e.cn).getD (fun _ => 0) d *
        (-e.len / pm.area e.cell) else 0 := by
  unfold ceedTBEdge at h
  simp only [Option.map_eq_some_iff] at h
  obtain ⟨F, hF, rfl⟩ := h
  have hc := hv e he
  rw [entryOfT_addAtT gid γ d _ (by rw [hf _ hc]; exact hc), hf _ hc, hF, Option.getD_some]

theorem ceedTermT_sees {Q : TProblem} {hr : Bool} {sv : TSolver} {P : FlowParams} {n np d : ℕ} (hd : d < 3 + n)
    {pm : Fin np → PMesh} {bnd : Fin np → List TBEdge} {gid : Fin np → ℕ → ℕ} {eowner : GEdge → Fin np}
    {bowner : TBEdge → Fin np} (hD : TCeedDivides Q pm bnd gid eowner bowner) (hg : 0 ≤ P.g) (ht : 0 < P.tinyH)
    (p : Fin np) (U : ℕ → TCons) (γ : ℕ) {ge : GEdge} {le : IEdge} (hle : le ∈ (pm p).internal)
    (hs : Sees (gid p) ge le) (hn : TNoFront hr sv P (Q.zc ge.c1) (Q.zc ge.c2) (U ge.c1) (U ge.c2)) :
    ceedTermT hr sv P n (pm p) (gid p) (fun c => U (gid p c)) γ d le = Q.edgeTerm hr sv P n U γ d ge := by
  obtain ⟨r, hre, hlen, hcase⟩ := hs
  have hl := (hD.valid p).left le hle
  have hrr := (hD.valid p).right le hle r hre
  unfold ceedTermT TProblem.edgeTerm TProblem.pair
  rw [hre]
  simp only [hD.zc p _ hl, hD.zc p _ hrr, hD.area p _ hl, hD.area p _ hrr, hlen]
  rcases hcase with ⟨h1, h2, h3, h4⟩ | ⟨h1, h2, h3, h4⟩
  · rw [h1, h2, h3, h4, facePairTCeed_eq n _ _ hg ht hn]
    congr 1
    · by_cases hx : ge.c1 = γ
      · rw [if_pos hx, if_pos hx, hx]
      · rw [if_neg hx, if_neg hx]
    · by_cases hx : ge.c2 = γ
      · rw [if_pos hx, if_pos hx, hx]
      · rw [if_neg hx, if_neg hx]
  · obtain ⟨s1, s2⟩ := facePairT_swap hr sv P hd (Q.zc ge.c1) (Q.zc ge.c2) (U ge.c1) (U ge.c2) ge.sn ge.cn
    rw [h1, h2, h3, h4, facePairTCeed_eq n _ _ hg ht hn.symm, s1, s2, add_comm]
    congr 1
    · by_cases hx : ge.c1 = γ
      · rw [if_pos hx, if_pos hx, hx]; ring
      · rw [if_neg hx, if_neg hx]
    · by_cases hx : ge.c2 = γ
      · rw [if_pos hx, if_pos hx, hx]; ring
      · rw [if_neg hx, if_neg hx]

/-- C107 for CEED, partial: if on every process the owned cells come first in the local numbering and no front of
water that carries tracers is in the domain, then for every division among processes, edge ownership, order and
orientation of edges the flux divergence that `DMLocalToGlobal` assembles is that of the undivided problem — the same
one as for the PETSc backend. Missing: fronts, see `C107_ceed_violated`, and local numberings in which a ghost cell
precedes an owned one, see `C73_ceed_numbering_violated`. -/
theorem C107_ceed_partial {Q : TProblem} {hr : Bool} {sv : TSolver} {P : FlowParams} {n np d : ℕ} (hd : d < 3 + n)
    {pm : Fin np → PMesh} {bnd : Fin np → List TBEdge} {gid : Fin np → ℕ → ℕ} {eowner : GEdge → Fin np}
    {bowner : TBEdge → Fin np} (hD : TCeedDivides Q pm bnd gid eowner bowner) (hg : 0 ≤ P.g) (ht : 0 < P.tinyH)
    (hf : ∀ p, OwnedFirst (pm p)) (U : ℕ → TCons) (hn : Q.NoFronts hr sv P U) (f : Fin np → ℕ → ℕ → ℝ)
    (h : ∀ p, ceedTDiv hr sv P n (pm p) (bnd p) (fun c => U (gid p c)) = some (f p)) (γ : ℕ) :
    localToGlobalAddT (fun p => (pm p).numCells) gid f γ d = Q.div hr sv P n U γ d := by
  have hlocal : ∀ p, entryOfT (pm p).numCells (gid p) γ d (f p) =
      ((pm p).internal.map (ceedTermT hr sv P n (pm p) (gid p) (fun c => U (gid p c)) γ d)).sum +
      ((bnd p).map fun e => if gid p e.cell = γ then
        (boundaryTFluxCeed sv P n e.bc (U (gid p e.cell)) e.sn e.cn).getD (fun _ => 0) d *
          (-e.len / (pm p).area e.cell) else 0).sum := by
    intro p
    have hx := h p
    unfold ceedTDiv at hx
    rw [Option.bind_eq_some_iff] at hx
    obtain ⟨f1, h1, h2⟩ := hx
    have s1 := foldlM_sum _ (entryOfT (pm p).numCells (gid p) γ d)
      (ceedTermT hr sv P n (pm p) (gid p) (fun c => U (gid p c)) γ d) (pm p).internal _ _
      (fun f e f' he hs => ceedTStep_entry (hD.valid p) (hf p) (gid p) _ γ d f f' e he hs) h1
    have s2 := foldlM_sum _ (entryOfT (pm p).numCells (gid p) γ d) _ (bnd p) _ _
      (fun f e f' he hs => ceedTBStep_entry (hD.bvalid p) (hf p) (gid p) _ γ d f f' e he hs) h2
    have hz : entryOfT (pm p).numCells (gid p) γ d (fun _ _ => 0) = 0 := by
      unfold entryOfT
      apply sum_eq_zero
      intro i _
      simp
    rw [s2, s1, hz, zero_add]
  have hsum : localToGlobalAddT (fun p => (pm p).numCells) gid f γ d =
      ∑ p, entryOfT (pm p).numCells (gid p) γ d (f p) := rfl
  rw [hsum, sum_congr rfl fun p _ => hlocal p, sum_add_distrib]
  unfold TProblem.div
  congr 1
  · rw [← sum_filter_owner eowner]
    apply sum_congr rfl
    intro p _
    obtain ⟨l, hperm, hall⟩ := hD.edges p
    have e1 : ((pm p).internal.map (ceedTermT hr sv P n (pm p) (gid p) (fun c => U (gid p c)) γ d)).sum =
        (((pm p).internal.filter fun e => e.right.isSome).map
          (ceedTermT hr sv P n (pm p) (gid p) (fun c => U (gid p c)) γ d)).sum := by
      generalize (pm p).internal = L
      induction L with
      | nil => rfl
      | cons a L ih =>
        rw [List.filter_cons, List.map_cons, List.sum_cons, ih]
        by_cases ha : a.right.isSome = true
        · rw [if_pos ha]; rfl
        · have ha' : a.right = none := by simpa using ha
          rw [if_neg ha]
          simp [ceedTermT, ha']
    rw [e1, ← (hperm.map _).sum_eq]
    exact forall2_sum _ _ hall fun ge hge le hle hs =>
      ceedTermT_sees hd hD hg ht p U γ (List.mem_of_mem_filter (hperm.mem_iff.mp hle)) hs
        (hn.edges ge (List.mem_of_mem_filter hge))
  · rw [← sum_filter_owner bowner]
    apply sum_congr rfl
    intro p _
    rw [← ((hD.bedges p).map _).sum_eq, List.map_map]
    congr 1
    apply List.map_congr_left
    intro e he
    have hc := hD.bvalid p e he
    have hmem : ({ e with cell := gid p e.cell } : TBEdge) ∈ Q.bedges :=
      List.mem_of_mem_filter ((hD.bedges p).mem_iff.mp (List.mem_map.mpr ⟨e, he, rfl⟩))
    obtain ⟨b1, b2⟩ := hn.bedges _ hmem
    simp only [Function.comp, hD.area p _ hc, TProblem.bndTerm, bndFluxT]
    by_cases hx : gid p e.cell = γ
    · rw [if_pos hx, if_pos hx, ← hx]
      have := boundaryTFluxCeed_eq (sv := sv) (n := n) hg ht b1 b2
      dsimp only at this
      rw [this]
    · rw [if_neg hx, if_neg hx]

/-- C107 for CEED, partial: the right-hand side of every owned cell (`cellTRhsCeed` with what `DMLocalToGlobal`
assembled) is that of the undivided problem — here also where the roughness varies. Missing as in
`C107_ceed_partial`; also tracer sources in dry cells, see `C66_dry_source_violated`. -/
theorem C107_ceed_rhs_partial {Q : TProblem} {hr : Bool} {sv : TSolver} {P : FlowParams} {n np : ℕ}
    {pm : Fin np → PMesh} {bnd : Fin np → List TBEdge} {gid : Fin np → ℕ → ℕ} {eowner : GEdge → Fin np}
    {bowner : TBEdge → Fin np} {owner : ℕ → Fin np} {src : Fin np → ℕ → ℕ → ℝ} {mann : Fin np → ℕ → ℝ}
    (hD : TCeedDivides Q pm bnd gid eowner bowner) (hDv : TDivides Q pm bnd gid owner src mann) (hg : 0 ≤ P.g)
    (ht : 0 < P.tinyH) (hf : ∀ p, OwnedFirst (pm p)) (dt : ℝ) (U : ℕ → TCons) (hn : Q.NoFronts hr sv P U)
    (f : Fin np → ℕ → ℕ → ℝ)
    (h : ∀ p, ceedTDiv hr sv P n (pm p) (bnd p) (fun c => U (gid p c)) = some (f p))
    (p : Fin np) {c : ℕ} (hc : c < (pm p).numCells) (ho : (pm p).owned c = true)
    (hs : TSourceAgree P n (Q.src (gid p c)) (U (gid p c))) :
    (∃ F G, cellTRhsCeed P (!hr) n ((pm p).dzdx c) ((pm p).dzdy c) dt (mann p ((pm p).l2o c)) (src p ((pm p).l2o c))
        (localToGlobalAddT (fun p => (pm p).numCells) gid f (gid p c)) (U (gid p c)) = some F ∧
      Q.rhs hr sv P n dt U (gid p c) = some G ∧ ∀ d < 3 + n, F d = G d) ∨
    (cellTRhsCeed P (!hr) n ((pm p).dzdx c) ((pm p).dzdy c) dt (mann p ((pm p).l2o c)) (src p ((pm p).l2o c))
        (localToGlobalAddT (fun p => (pm p).numCells) gid f (gid p c)) (U (gid p c)) = none ∧
      Q.rhs hr sv P n dt U (gid p c) = none) := by
  have hq : (U (gid p c)).q.h ≠ P.tinyH := by
    rcases hs with h | h
    · exact ne_of_gt h
    · exact ne_of_lt h.1
  have hdiv : ∀ d < 3 + n, localToGlobalAddT (fun p => (pm p).numCells) gid f (gid p c) d =
      Q.div hr sv P n U (gid p c) d := fun d hd => C107_ceed_partial hd hD hg ht hf U hn f h _
  unfold cellTRhsCeed TProblem.rhs
  rw [C104_friction dt _ _ _ _ _ _ ht hq, hDv.dzdx p c hc, hDv.dzdy p c hc, hDv.mann p c hc ho, hDv.src p c hc ho,
    hdiv 1 (by omega), hdiv 2 (by omega)]
  cases frictionSemiImplicit P dt (Q.mann (gid p c)) (U (gid p c)).q (Q.div hr sv P n U (gid p c) 1)
    (Q.div hr sv P n U (gid p c) 2)
    (bedTerm P (!hr) (Q.dzdx (gid p c)) (Q.dzdy (gid p c)) (U (gid p c)).q.h).1
    (bedTerm P (!hr) (Q.dzdx (gid p c)) (Q.dzdy (gid p c)) (U (gid p c)).q.h).2 with
  | none => exact Or.inr ⟨rfl, rfl⟩
  | some t =>
    refine Or.inl ⟨_, _, rfl, rfl, ?_⟩
    intro d hd
    by_cases h0 : d = 0
    · subst h0; simp [hdiv 0 (by omega)]
    by_cases h1 : d = 1
    · subst h1; simp; ring
    by_cases h2 : d = 2
    · subst h2; simp; ring
    obtain ⟨j, rfl⟩ : ∃ j, d = 3 + j := ⟨d - 3, by omega⟩
    have hj : 3 + j - 3 = j := by omega
    have hjn : j < n := by omega
    simp only [if_neg h0, if_neg h1, if_neg h2, hj, if_pos hjn, hdiv _ hd, tracerSource_eq _ hs hjn]

/-- C107 for CEED: two divisions give every cell the same flux divergence (with the exceptions of
`C107_ceed_partial`). -/
theorem C107_ceed_independent_partial {Q : TProblem} {hr : Bool} {sv : TSolver} {P : FlowParams} {n np np' d : ℕ}
    (hd : d < 3 + n) {pm : Fin np → PMesh} {bnd : Fin np → List TBEdge} {gid : Fin np → ℕ → ℕ}
    {eowner : GEdge → Fin np} {bowner : TBEdge → Fin np} {pm' : Fin np' → PMesh} {bnd' : Fin np' → List TBEdge}
    {gid' : Fin np' → ℕ → ℕ} {eowner' : GEdge → Fin np'} {bowner' : TBEdge → Fin np'}
    (hD : TCeedDivides Q pm bnd gid eowner bowner) (hD' : TCeedDivides Q pm' bnd' gid' eowner' bowner') (hg : 0 ≤ P.g)
    (ht : 0 < P.tinyH) (hf : ∀ p, OwnedFirst (pm p)) (hf' : ∀ p, OwnedFirst (pm' p)) (U : ℕ → TCons)
    (hn : Q.NoFronts hr sv P U) (f : Fin np → ℕ → ℕ → ℝ) (f' : Fin np' → ℕ → ℕ → ℝ)
    (h : ∀ p, ceedTDiv hr sv P n (pm p) (bnd p) (fun c => U (gid p c)) = some (f p))
    (h' : ∀ p, ceedTDiv hr sv P n (pm' p) (bnd' p) (fun c => U (gid' p c)) = some (f' p)) (γ : ℕ) :
    localToGlobalAddT (fun p => (pm p).numCells) gid f γ d =
      localToGlobalAddT (fun p => (pm' p).numCells) gid' f' γ d := by
  rw [C107_ceed_partial hd hD hg ht hf U hn f h γ, C107_ceed_partial hd hD' hg ht hf' U hn f' h' γ]

/-! ### CEED: example and fronts -/

/-- two cells with an edge between them -/
noncomputable def exCeedTProblem (bed : List TBEdge) : TProblem where
  N := 2
  area _ := 1
  zc _ := 0
  dzdx _ := 0
  dzdy _ := 0
  src _ _ := 0
  mann _ := 0.03
  edges := [⟨0, 1, 1, 0, 1⟩]
  bedges := bed

/-- the two cells on one process; the edge is seen from cell 0 (`fwd`) or from cell 1 -/
noncomputable def exCeedTWhole (fwd : Bool) : PMesh where
  numCells := 2
  area _ := 1
  owned _ := true
  l2o c := c
  internal := if fwd then [⟨0, some 1, 1, 0, 1⟩] else [⟨0, some 1, 1, 0, -1⟩]
  boundary := []
  dzdx _ := 0
  dzdy _ := 0
  zc _ := 0

theorem exCeedTWhole_divides (bed : List TBEdge) (hb : ∀ e ∈ bed, e.cell < 2) (fwd : Bool) :
    TCeedDivides (exCeedTProblem bed) (fun _ : Fin 1 => exCeedTWhole fwd)
      (fun _ => bed.map fun e => { e with cell := if fwd then e.cell else 1 - e.cell })
      (fun _ c => if fwd then c else 1 - c) (fun _ => 0) (fun _ => 0) where
  valid p := by
    refine ⟨?_, ?_, ?_, ?_⟩ <;> cases fwd <;> simp [exCeedTWhole]
  bvalid p e he := by
    rw [List.mem_map] at he
    obtain ⟨e', he', rfl⟩ := he
    have := hb e' he'
    cases fwd
    · show 1 - e'.cell < 2
      omega
    · exact this
  area _ _ _ := rfl
  zc _ _ _ := rfl
  edges p := by
    have hp : p = 0 := Subsingleton.elim _ _
    subst hp
    refine ⟨(exCeedTWhole fwd).internal, ?_, ?_⟩
    · cases fwd <;> simp [exCeedTWhole]
    · cases fwd
      · refine List.Forall₂.cons ⟨1, rfl, rfl, Or.inr ⟨rfl, rfl, ?_, rfl⟩⟩ List.Forall₂.nil
        simp
      · exact List.Forall₂.cons ⟨1, rfl, rfl, Or.inl ⟨rfl, rfl, rfl, rfl⟩⟩ List.Forall₂.nil
  bedges p := by
    have hp : p = 0 := Subsingleton.elim _ _
    subst hp
    rw [List.map_map]
    simp only [exCeedTProblem, decide_true, List.filter_true]
    have : (bed.map ((fun e : TBEdge => { e with cell := if fwd then e.cell else 1 - e.cell }) ∘
        fun e : TBEdge => { e with cell := if fwd then e.cell else 1 - e.cell })) = bed := by
      conv_rhs => rw [← List.map_id bed]
      apply List.map_congr_left
      intro e he
      have := hb e he
      cases fwd
      · have h2 : 1 - (1 - e.cell) = e.cell := by omega
        simp [h2]
      · simp
    rw [this]

/-- Wet cells with sediment and a wall, on one process and numbered the other way round: every component of both
cells is the same. -/
example (sv : TSolver) : ∃ f f', ceedTDiv false sv exParams 2 (exCeedTWhole true) [⟨0, 1, 0, -1, .reflecting⟩]
      (fun c => ⟨⟨1 + c, 1, 0⟩, fun _ => c⟩) = some f ∧
    ceedTDiv false sv exParams 2 (exCeedTWhole false) [⟨1, 1, 0, -1, .reflecting⟩]
      (fun c => ⟨⟨1 + ((1 - c : ℕ) : ℝ), 1, 0⟩, fun _ => ((1 - c : ℕ) : ℝ)⟩) = some f' ∧
    ∀ d < 5, f 0 d = f' 1 d ∧ f 1 d = f' 0 d := by
  have hg : 0 ≤ exParams.g := by norm_num [exParams]
  have ht : 0 < exParams.tinyH := by norm_num [exParams]
  have ht1 : exParams.tinyH < 1 := by norm_num [exParams]
  have hpos : ∀ c : ℕ, exParams.tinyH < 1 + (c : ℝ) := fun c => by
    have := Nat.cast_nonneg (α := ℝ) c
    linarith
  have hdef : ∀ (fwd : Bool) (u : ℕ → TCons) (b : ℕ), (∀ c, exParams.tinyH < (u c).q.h) →
      (ceedTDiv false sv exParams 2 (exCeedTWhole fwd) [⟨b, 1, 0, -1, .reflecting⟩] u).isSome := by
    intro fwd u b hu
    have hw : ∀ c, exParams.tinyH < (u c).q.h := hu
    have hfl : ∀ (qL qR : TCons) (sn cn : ℝ), exParams.tinyH < qL.q.h → exParams.tinyH < qR.q.h →
        (tracerFluxCeed sv exParams.g exParams.tinyH 2 qL qR sn cn).isSome := by
      intro qL qR sn cn hL hR
      rw [C104_flux_partial sv 2 qL qR sn cn hg ht (Or.inr (Or.inl ⟨hL, hR⟩))]
      apply usedTracerFlux_isSome _ _ _ _ _ _ _ ht
      · rw [tracerVelocities_h]; linarith
      · rw [tracerVelocities_h]; linarith
    unfold ceedTDiv
    simp only [Bool.false_eq_true, if_false]
    have h1 : ((exCeedTWhole fwd).internal.foldlM (ceedTEdge sv exParams 2 (exCeedTWhole fwd) u)
        fun _ _ => 0).isSome := by
      apply foldlM_isSome
      intro f e he
      unfold ceedTEdge
      cases e.right with
      | none => rfl
      | some r =>
        dsimp only
        rw [Option.isSome_map]
        exact hfl _ _ _ _ (hu _) (hu _)
    obtain ⟨f1, hf1⟩ := Option.isSome_iff_exists.mp h1
    rw [hf1, Option.bind_some]
    apply foldlM_isSome
    intro f e he
    simp only [List.mem_cons, List.not_mem_nil, or_false] at he
    subst he
    unfold ceedTBEdge boundaryTFluxCeed
    dsimp only
    rw [Option.isSome_map, if_pos (hu _)]
    exact hfl _ _ _ _ (hu _) (hu _)
  obtain ⟨f, hf⟩ := Option.isSome_iff_exists.mp (hdef true (fun c => ⟨⟨1 + c, 1, 0⟩, fun _ => c⟩) 0 fun c => hpos c)
  obtain ⟨f', hf'⟩ := Option.isSome_iff_exists.mp (hdef false
    (fun c => ⟨⟨1 + ((1 - c : ℕ) : ℝ), 1, 0⟩, fun _ => ((1 - c : ℕ) : ℝ)⟩) 1 fun c => hpos (1 - c))
  refine ⟨f, f', hf, hf', ?_⟩
  intro d hd
  have hb : ∀ e ∈ ([⟨0, 1, 0, -1, .reflecting⟩] : List TBEdge), e.cell < 2 := by
    intro e he
    simp only [List.mem_cons, List.not_mem_nil, or_false] at he
    subst he
    norm_num
  have key := C107_ceed_independent_partial (hr := false) (sv := sv) (P := exParams) (n := 2) (d := d) (by omega)
    (exCeedTWhole_divides _ hb true) (exCeedTWhole_divides _ hb false) hg ht (fun _ _ _ => rfl) (fun _ _ _ => rfl)
    (fun c => ⟨⟨1 + c, 1, 0⟩, fun _ => c⟩)
    ⟨fun e _ => ⟨Or.inr (Or.inl ⟨hpos _, hpos _⟩), Or.inr (Or.inl ⟨hpos _, hpos _⟩)⟩, fun e he => by
      simp only [exCeedTProblem, List.mem_cons, List.not_mem_nil, or_false] at he
      subst he
      exact ⟨ne_of_gt (hpos _), trivial⟩⟩
    (fun _ => f) (fun _ => f') (fun _ => by simpa using hf) (fun _ => by simpa using hf')
  constructor
  · have := key 0
    simpa [localToGlobalAddT, exCeedTWhole, Finset.sum_range_succ] using this
  · have := key 1
    simpa [localToGlobalAddT, exCeedTWhole, Finset.sum_range_succ] using this

/-- C107 is violated at fronts with CEED: a dry cell beside water that carries a tracer. If the dry cell has the lower
number on its process, the water flows into it without its tracer; if the numbers are exchanged, the same edge gives
NaN. Which of the two happens depends on how the mesh was divided. -/
theorem C107_ceed_violated :
    TCeedDivides (exCeedTProblem []) (fun _ : Fin 1 => exCeedTWhole true) (fun _ => []) (fun _ c => c) (fun _ => 0)
      (fun _ => 0) ∧
    TCeedDivides (exCeedTProblem []) (fun _ : Fin 1 => exCeedTWhole false) (fun _ => []) (fun _ c => 1 - c)
      (fun _ => 0) (fun _ => 0) ∧
    (∃ f, ceedTDiv false .upwind ⟨2, 1e-7, 0, 0⟩ 1 (exCeedTWhole true) [] (fun c => ⟨⟨c, 0, 0⟩, fun _ => 5 * c⟩) =
      some f ∧ 0 < f 0 0 ∧ f 0 3 = 0) ∧
    ceedTDiv false .upwind ⟨2, 1e-7, 0, 0⟩ 1 (exCeedTWhole false) []
      (fun c => ⟨⟨((1 - c : ℕ) : ℝ), 0, 0⟩, fun _ => 5 * ((1 - c : ℕ) : ℝ)⟩) = none := by
  refine ⟨?_, ?_, ?_, ?_⟩
  · simpa using exCeedTWhole_divides [] (by simp) true
  · simpa using exCeedTWhole_divides [] (by simp) false
  · obtain ⟨f, hf, h1, h2, -, -⟩ := C104_uniform_violated
    exact ⟨f, hf, h1, h2⟩
  · have hn := (C48_tracer_dry_right_violated (g := 2) (tinyH := 1e-7) .upwind 1
      ⟨⟨((1 - 0 : ℕ) : ℝ), 0, 0⟩, fun _ => 5 * ((1 - 0 : ℕ) : ℝ)⟩
      ⟨⟨((1 - 1 : ℕ) : ℝ), 0, 0⟩, fun _ => 5 * ((1 - 1 : ℕ) : ℝ)⟩ 0 (-1) (by norm_num) (by norm_num)
      (by norm_num)).1
    unfold ceedTDiv
    simp only [Bool.false_eq_true, if_false]
    have : (exCeedTWhole false).internal = [⟨0, some 1, 1, 0, -1⟩] := rfl
    rw [this, List.foldlM_cons]
    have he : ceedTEdge .upwind ⟨2, 1e-7, 0, 0⟩ 1 (exCeedTWhole false)
        (fun c => ⟨⟨((1 - c : ℕ) : ℝ), 0, 0⟩, fun _ => 5 * ((1 - c : ℕ) : ℝ)⟩) (fun _ _ => 0)
        ⟨0, some 1, 1, 0, -1⟩ = none := by
      unfold ceedTEdge
      dsimp only
      rw [hn]
      rfl
    rw [he]
    rfl

end RDy
