import Verif.Model.Tracer
import Verif.Model.Ceed

/-!
Model of the transport of tracers with hydrostatic reconstruction
(`/repo/src/tracer/tracer_petsc.c:792-1195`, `/repo/src/tracer/tracer_fluxes_hydro_recon_ceed.h`) and of the
whole right-hand side of a run with tracers (PETSc backend).

As in `Verif.Model.Operator`, a NaN in a term that is added to a cell makes the whole result `none`.
-/

namespace RDy

/-- `/repo/src/tracer/tracer_petsc.c:851-895`: the reconstructed state of one side: depth and velocities as
without tracers (`hrState`), concentrations of the cell. (`hci` of the reconstructed state, `:891-892`, is
not read by the Riemann solvers and left out.) -/
noncomputable def hrTState (P : FlowParams) (z zmax : ℝ) (s : TCons) : TPrim :=
  ⟨hrState P z zmax s.q, fun j => if s.q.h > P.tinyH then s.hc j / s.q.h else 0⟩

/-- `/repo/src/tracer/tracer_petsc.c:899-908`, `:938-960`: the fluxes that are used; none if both
reconstructed depths are dry. -/
noncomputable def hrTFlux (sv : TSolver) (P : FlowParams) (n : ℕ) (L R : TPrim) (sn cn : ℝ) :
    Option (ℕ → ℝ) :=
  if L.p.h > P.tinyH ∨ R.p.h > P.tinyH then tracerFlux sv P.g n L R sn cn else some fun _ => 0

/-- `/repo/src/tracer/tracer_petsc.c:962-967`: the pressure correction, of the momentum components only. -/
noncomputable def hrTCorrection (P : FlowParams) (h hrec sn cn : ℝ) (d : ℕ) : ℝ :=
  if d = 1 then 0.5 * P.g * (h * h - hrec * hrec) * cn
  else if d = 2 then 0.5 * P.g * (h * h - hrec * hrec) * sn
  else 0

/-- `/repo/src/tracer/tracer_petsc.c:843-980`: one internal edge of `ApplyTracerInteriorFluxHR` (both loops). -/
noncomputable def hrTEdge (sv : TSolver) (P : FlowParams) (n : ℕ) (pm : PMesh) (u : ℕ → TCons)
    (f : ℕ → ℕ → ℝ) (e : IEdge) : Option (ℕ → ℕ → ℝ) :=
  match e.right with
  | none => some f
  | some r =>
    if (u r).q.h < P.tinyH ∧ (u e.left).q.h < P.tinyH then some f
    else
      (hrTFlux sv P n (hrTState P (pm.zc e.left) (max (pm.zc e.left) (pm.zc r)) (u e.left))
        (hrTState P (pm.zc r) (max (pm.zc e.left) (pm.zc r)) (u r)) e.sn e.cn).map fun F =>
          addOwnedT pm
            (addOwnedT pm
              (addOwnedT pm (addOwnedT pm f e.left F (-e.len / pm.area e.left)) r F (e.len / pm.area r))
              e.left
              (hrTCorrection P (u e.left).q.h
                (hrTState P (pm.zc e.left) (max (pm.zc e.left) (pm.zc r)) (u e.left)).p.h e.sn e.cn)
              (-e.len / pm.area e.left))
            r
            (hrTCorrection P (u r).q.h
              (hrTState P (pm.zc r) (max (pm.zc e.left) (pm.zc r)) (u r)).p.h e.sn e.cn)
            (e.len / pm.area r)

/-- `/repo/src/tracer/tracer_petsc.c:807-986` (internal edges) and `:405-525` (boundary edges, the operator
without reconstruction): the flux divergence of all components with hydrostatic reconstruction
(`/repo/src/operator.c:210-214`, `/repo/src/tracer/tracer_petsc.c:988-1045`). -/
noncomputable def tracerDivergenceHR (sv : TSolver) (P : FlowParams) (n : ℕ) (pm : PMesh)
    (bnd : List TBEdge) (u : ℕ → TCons) : Option (ℕ → ℕ → ℝ) :=
  (pm.internal.foldlM (hrTEdge sv P n pm u) fun _ _ => 0).bind fun f =>
    bnd.foldlM (tracerBEdge sv P n pm u) f

/-- the flux divergence with (`hr = true`) or without hydrostatic reconstruction.
`/repo/src/operator.c:205-215`. -/
noncomputable def tracerDiv (hr : Bool) (sv : TSolver) (P : FlowParams) (n : ℕ) (pm : PMesh)
    (bnd : List TBEdge) (u : ℕ → TCons) : Option (ℕ → ℕ → ℝ) :=
  if hr then tracerDivergenceHR sv P n pm bnd u else tracerDivergence sv P n pm bnd u

/-- `/repo/src/tracer/tracer_petsc.c:665-723` (and `:1093-1142` with hydrostatic reconstruction, where the
bed-slope term is 0): one cell of the source operator. `fd` is the copy of the flux divergence, `src` the external
sources by owned number and component, `mann` the vector of Manning's coefficients. -/
noncomputable def tracerSourceCell (P : FlowParams) (includeSlope : Bool) (n : ℕ) (pm : PMesh) (dt : ℝ)
    (src : ℕ → ℕ → ℝ) (mann : ℕ → ℝ) (fd : ℕ → ℕ → ℝ) (u : ℕ → TCons) (f : ℕ → ℕ → ℝ) (c : ℕ) :
    Option (ℕ → ℕ → ℝ) :=
  if pm.owned c then
    (frictionSemiImplicit P dt (mann (tracerManningIndex pm c)) (u c).q (fd (pm.l2o c) 1)
      (fd (pm.l2o c) 2) (bedTerm P includeSlope (pm.dzdx c) (pm.dzdy c) (u c).q.h).1
      (bedTerm P includeSlope (pm.dzdx c) (pm.dzdy c) (u c).q.h).2).map fun t =>
        addOwnedT pm f c (fun d =>
          if d = 0 then src (pm.l2o c) 0
          else if d = 1 then
            -(bedTerm P includeSlope (pm.dzdx c) (pm.dzdy c) (u c).q.h).1 - t.1 + src (pm.l2o c) 1
          else if d = 2 then
            -(bedTerm P includeSlope (pm.dzdx c) (pm.dzdy c) (u c).q.h).2 - t.2 + src (pm.l2o c) 2
          else if d - 3 < n then
            tracerSource P (mann (tracerManningIndex pm c)) (u c) (src (pm.l2o c) d) (d - 3)
          else 0) 1
  else some f

/-- `/repo/src/tracer/tracer_petsc.c:617-735`, `:1070-1154`: the source operators
(`ApplyTracerSourceSemiImplicit`, `ApplyTracerSourceHRSemiImplicit`). -/
noncomputable def applyTracerSource (P : FlowParams) (includeSlope : Bool) (n : ℕ) (pm : PMesh) (dt : ℝ)
    (src : ℕ → ℕ → ℝ) (mann : ℕ → ℝ) (fd : ℕ → ℕ → ℝ) (u : ℕ → TCons) (f : ℕ → ℕ → ℝ) :
    Option (ℕ → ℕ → ℝ) :=
  (List.range pm.numCells).foldlM (tracerSourceCell P includeSlope n pm dt src mann fd u) f

/-- `/repo/src/rdysetup.c:1120-1142`, `/repo/src/operator.c:656-672`: the right-hand side of a run with
tracers: zero the vector, apply the flux operators, copy the flux divergence, apply the source operator.
Only semi-implicit friction is accepted (`/repo/src/tracer/tracer_petsc.c:775-782`, `:1182-1189`). -/
noncomputable def tracerRhs (hr : Bool) (sv : TSolver) (P : FlowParams) (n : ℕ) (pm : PMesh)
    (bnd : List TBEdge) (dt : ℝ) (src : ℕ → ℕ → ℝ) (mann : ℕ → ℝ) (u : ℕ → TCons) :
    Option (ℕ → ℕ → ℝ) :=
  (tracerDiv hr sv P n pm bnd u).bind fun fd => applyTracerSource P (!hr) n pm dt src mann fd u fd

/-! ### CEED -/

/-- `/repo/src/tracer/tracer_fluxes_hydro_recon_ceed.h:78-101`: the reconstructed conserved variables of one
side (`SafeDiv`, written out; its divisors are positive for `tiny_h ≥ 0`). -/
noncomputable def hrTStateCeed (P : FlowParams) (z zmax : ℝ) (s : TCons) : TCons :=
  ⟨⟨(hrState P z zmax s.q).h, (hrState P z zmax s.q).h * (hrState P z zmax s.q).u,
    (hrState P z zmax s.q).h * (hrState P z zmax s.q).v⟩,
   fun j => (hrState P z zmax s.q).h * if s.q.h > P.tinyH then s.hc j / s.q.h else 0⟩

/-- `/repo/src/tracer/tracer_fluxes_hydro_recon_ceed.h:103-119` `TracerFlux_HydroRecon` for one edge: the flux
(before scaling and pressure correction); the Roe solver whatever `numerics.riemann` says
(`/repo/src/operator_fluxes_hydro_recon_ceed.c:44-46`). -/
noncomputable def hrTFluxCeed (P : FlowParams) (n : ℕ) (zL zR : ℝ) (qL qR : TCons) (sn cn : ℝ) :
    Option (ℕ → ℝ) :=
  if qL.q.h > P.tinyH ∨ qR.q.h > P.tinyH then
    tracerFluxCeed .roe P.g P.tinyH n (hrTStateCeed P zL (max zL zR) qL) (hrTStateCeed P zR (max zL zR) qR)
      sn cn
  else some fun _ => 0

end RDy
