import Verif.Lemmas.CeedMuscl
import Verif.Props.CeedHR
import Verif.Props.Packed
import Verif.Props.SecondOrder
import Verif.Props.Courant
import Mathlib.Tactic

/-!
# The second-order flux operators of the CEED backend as they are put together, on several processes (C114)

`createMusclC` builds on one process the operator of the internal edges, which reads states from the vector `q_reconstructed`, and those of the boundaries;
`evaluationMC` is one evaluation on all processes: gradients, their exchange, reconstruction into the vector, and both operators. `ceedDivergence2R`, for which
C85 is stated, takes one edge after the other instead. `gid p c` is the number of local cell `c` of process `p` in the whole mesh.
-/

namespace RDy

open Finset

variable {N : ℕ} {pr : Fin N → MCProc} {root : Fin N → ℕ → Fin N × ℕ} {gid : Fin N → ℕ → ℕ} {nes nvs : Fin N → ℕ}

/-! ### Every evaluation is defined -/

/-- C114: on valid tables the operators can be built on every process and evaluated any number of times, for any states, without an access outside an array and
without the use of an offset that was not set. The elevations at vertices are those of the bed. -/
theorem C114_defined (h : MCProcs.Valid pr root gid nes nvs) (P : FlowParams) (l : Limiter) (S : List (ℝ × (Fin N → Arr ℝ)))
    (hS : ∀ s ∈ S, ∀ p, (s.2 p).len = 3 * (pr p).nc) :
    ∃ M M', (∀ p, createMusclC P (pr p) (pr p).T.vz = some (M p)) ∧ evaluationsMC l pr root S M = some M' := by
  choose M hM using fun p => createMusclC_spec P (h.each p) (pr p).T.vz
  obtain ⟨M', h1, -⟩ := evaluationsMC_spec h P l (eta := fun p => (pr p).T.vz) (fun p => (h.each p).T.vz) S hS (fun p => (hM p).2)
  exact ⟨M, M', fun p => (hM p).1, h1⟩

/-! ### What an evaluation gives -/

/-- C114 (what an evaluation gives): whatever was evaluated before, an evaluation gives on every process the flux divergences found edge by edge over the owned
edges, with the states reconstructed from the gradients of the owners of the cells; it gives NaN somewhere exactly if one of those fluxes is NaN. -/
theorem C114_divergence (h : MCProcs.Valid pr root gid nes nvs) (P : FlowParams) (l : Limiter) (S : List (ℝ × (Fin N → Arr ℝ)))
    (hS : ∀ s ∈ S, ∀ p, (s.2 p).len = 3 * (pr p).nc) (dt : ℝ) (u : Fin N → Arr ℝ) (hu : ∀ p, (u p).len = 3 * (pr p).nc) {M M' : Fin N → MusclC}
    (h1 : ∀ p, createMusclC P (pr p) (pr p).T.vz = some (M p)) (h2 : evaluationsMC l pr root S M = some M') :
    ∃ r, evaluationMC l pr root M' dt u = some r ∧ ∀ p, (r p).2.len = 3 * (pr p).nc ∧
      (∀ f, ceedDivergence2R P l (fun p => (pr p).mproc) gid (fun p => stateAt (u p)) p = some f →
        ∀ c, ∀ k < 3, (r p).2.val (3 * c + k) = some ((f c).comp k)) ∧
      (ceedDivergence2R P l (fun p => (pr p).mproc) gid (fun p => stateAt (u p)) p = none →
        ∃ c < (pr p).nc, ∀ k < 3, (r p).2.val (3 * c + k) = none) := by
  choose M0 hM using fun p => createMusclC_spec P (h.each p) (pr p).T.vz
  obtain rfl : M0 = M := funext fun p => Option.some.inj ((hM p).1.symm.trans (h1 p))
  obtain ⟨M1, e1, e2⟩ := evaluationsMC_spec h P l (eta := fun p => (pr p).T.vz) (fun p => (h.each p).T.vz) S hS (fun p => (hM p).2)
  obtain rfl : M1 = M' := Option.some.inj (e1.symm.trans h2)
  choose cn hcn using e2
  obtain ⟨r, i1, i2⟩ := evaluationMC_spec h P l (eta := fun p => (pr p).T.vz) (fun p => (h.each p).T.vz) (fun p => (hcn p).1) dt hu
  refine ⟨r, i1, fun p => ⟨(i2 p).2.1, fun f hf c k hk => ?_, fun hn => ?_⟩⟩
  · rw [(i2 p).2.2 c k hk]
    exact divergenceM_entry P l hf c k
  · obtain ⟨c, hc, hx⟩ := divergenceM_nan h P l hn
    exact ⟨c, hc, fun k hk => ((i2 p).2.2 c k hk).trans (hx k)⟩

/-! ### There is no NaN -/

theorem roeFluxCeed_some {P : FlowParams} (ht : 0 < P.tinyH) {qL qR : Cons} (sn cn dhv : ℝ) (hL : 0 ≤ qL.h) (hR : 0 ≤ qR.h)
    (hp : 0 < qL.h ∨ 0 < qR.h) : ∃ F, roeFluxCeed P.g P.tinyH P.hAnuga qL qR sn cn dhv = some F ∧ (0 < P.g → 0 < F.2) := by
  obtain ⟨sL, vL, wL⟩ := velocitiesCeed_some (hAnuga := P.hAnuga) qL ht
  obtain ⟨sR, vR, wR⟩ := velocitiesCeed_some (hAnuga := P.hAnuga) qR ht
  have hd : RoeDefined sL.h sR.h := by
    refine ⟨by rw [wL]; exact hL, by rw [wR]; exact hR, ?_⟩
    rw [wL, wR]
    rcases hp with hp | hp <;> linarith
  unfold roeFluxCeed
  rw [vL, vR]
  dsimp only [Option.bind_some]
  rw [if_pos hd]
  refine ⟨_, rfl, fun hg => ?_⟩
  show 0 < roeC P.g sL.h sR.h + |uperp (roeAvg sL.h sR.h sL.u sR.u) (roeAvg sL.h sR.h sL.v sR.v) sn cn|
  have h1 := roeC_pos hg hd
  have h2 := abs_nonneg (uperp (roeAvg sL.h sR.h sL.u sR.u) (roeAvg sL.h sR.h sL.v sR.v) sn cn)
  linarith

theorem edgeFluxCeed_some {P : FlowParams} (ht : 0 < P.tinyH) {qL qR : Cons} (sn cn dhv : ℝ) (hL : 0 ≤ qL.h) (hR : 0 ≤ qR.h) :
    ∃ F, edgeFluxCeed P.g P.tinyH P.hAnuga qL qR sn cn dhv = some F ∧ (0 < P.g → P.tinyH < qL.h ∨ P.tinyH < qR.h → 0 < F.2) := by
  unfold edgeFluxCeed
  by_cases hw : qL.h > P.tinyH ∨ qR.h > P.tinyH
  · rw [if_pos hw]
    obtain ⟨F, h1, h2⟩ := roeFluxCeed_some ht sn cn dhv hL hR (hw.imp (fun q => lt_trans ht q) (fun q => lt_trans ht q))
    exact ⟨F, h1, fun hg _ => h2 hg⟩
  · rw [if_neg hw]
    exact ⟨_, rfl, fun _ q => absurd q hw⟩

theorem boundaryFluxCeed_some {P : FlowParams} (hg : 0 < P.g) (ht : 0 < P.tinyH) (bc : BCond) {q : Cons} (sn cn : ℝ) (hq : 0 ≤ q.h)
    (hb : ∀ qb, bc = .dirichlet qb → 0 ≤ qb.h) : ∃ F, boundaryFluxCeed P bc q sn cn = some F := by
  cases bc with
  | dirichlet qb =>
    obtain ⟨F, h1, -⟩ := edgeFluxCeed_some ht sn cn 0 hq (hb qb rfl)
    exact ⟨F, h1⟩
  | reflecting =>
    show ∃ F, reflectFluxCeed P.g P.tinyH P.hAnuga q sn cn 0 = some F
    unfold reflectFluxCeed
    by_cases hw : q.h > P.tinyH
    · rw [if_pos hw]
      obtain ⟨F, h1, -⟩ := roeFluxCeed_some ht (qL := q) (qR := ⟨q.h, q.hu * (sn * sn - cn * cn) - q.hv * (2 * sn * cn),
        -q.hu * (2 * sn * cn) - q.hv * (sn * sn - cn * cn)⟩) sn cn 0 hq hq (Or.inl (lt_trans ht hw))
      exact ⟨F, h1⟩
    · rw [if_neg hw]; exact ⟨_, rfl⟩
  | outflow =>
    show ∃ F, outflowFluxCeed P.g P.tinyH P.hAnuga q sn cn 0 = some F
    unfold outflowFluxCeed
    dsimp only
    split_ifs with hw
    · have hR : 0 ≤ (|q.hu * cn + q.hv * sn| * |q.hu * cn + q.hv * sn| / P.g) ^ (1 / 3 : ℝ) :=
        Real.rpow_nonneg (div_nonneg (mul_nonneg (abs_nonneg _) (abs_nonneg _)) hg.le) _
      obtain ⟨F, h1, -⟩ := roeFluxCeed_some ht (qL := q)
        (qR := ⟨(|q.hu * cn + q.hv * sn| * |q.hu * cn + q.hv * sn| / P.g) ^ (1 / 3 : ℝ), _, _⟩) sn cn 0 hq hR
        (hw.1.imp (fun z => lt_trans ht z) (fun z => lt_trans ht z))
      exact ⟨F, h1⟩
    · exact ⟨_, rfl⟩

/-- C114 (no NaN): if the depths of the cells and of prescribed states are not negative, every flux of the second-order scheme is defined, so an evaluation gives
numbers. (Between cells the reconstructed depths are cut off at 0, so the internal edges need no assumption.) -/
theorem C114_numbers {P : FlowParams} (hg : 0 < P.g) (ht : 0 < P.tinyH) (l : Limiter) (procs : Fin N → MProc) (gid : Fin N → ℕ → ℕ)
    (u : Fin N → ℕ → Cons) (p : Fin N) (hu : ∀ e ∈ (procs p).pm.boundary, 0 ≤ (u p e.cell).h)
    (hb : ∀ e ∈ (procs p).pm.boundary, ∀ qb, e.bc = .dirichlet qb → 0 ≤ qb.h) : (ceedDivergence2R P l procs gid u p).isSome := by
  have h1 : ((faceStates l procs gid u p).foldlM (ceedEdge2R P (procs p).pm) fun _ => Flux.zero).isSome := by
    apply foldlM_isSome
    intro f e _
    unfold ceedEdge2R
    obtain ⟨F, hF, -⟩ := edgeFluxCeed_some (P := P) ht (qL := ⟨max 0 e.qL.h, e.qL.hu, e.qL.hv⟩) (qR := ⟨max 0 e.qR.h, e.qR.hu, e.qR.hv⟩)
      e.sn e.cn 0 (le_max_left _ _) (le_max_left _ _)
    rw [hF]
    rfl
  obtain ⟨f1, hf1⟩ := Option.isSome_iff_exists.mp h1
  unfold ceedDivergence2R
  rw [hf1]
  show ((procs p).pm.boundary.foldlM (ceedBEdge P (procs p).pm (u p)) f1).isSome
  apply foldlM_isSome
  intro f e he
  unfold ceedBEdge
  obtain ⟨F, hF⟩ := boundaryFluxCeed_some hg ht e.bc e.sn e.cn (hu e he) (hb e he)
  rw [hF]
  rfl

/-! ### The whole mesh -/

theorem mproc_boundary_lt (h : MCProcs.Valid pr root gid nes nvs) (p : Fin N) : ∀ e ∈ (pr p).mproc.pm.boundary, e.cell < (pr p).nc := by
  intro e he
  obtain ⟨B, hB, hm⟩ := List.mem_flatMap.mp he
  obtain ⟨i, hi, rfl⟩ := List.mem_map.mp hm
  exact (h.each p).T.left_lt (((h.each p).Bs B hB).ids i (owned'_mem hi).1)

/-- C114 (the whole mesh), partial: if the processes divide a mesh and hold its state, then after any evaluations the entries of a cell add up, over all processes and
places, to the second-order flux divergence of that cell on the undivided mesh, and none of them is NaN. Missing: numberings in which a ghost cell
precedes an owned cell, see `C85_ceed_numbering_violated`. -/
theorem C114_whole_mesh_partial (h : MCProcs.Valid pr root gid nes nvs) {Q : MProblem} {owner : ℕ → Fin N} {seen : Fin N → MEdge → Bool}
    {eowner : MEdge → Fin N} (hD : MDivides Q (fun p => (pr p).mproc) gid owner seen eowner) {bowner : BEdge → Fin N}
    (hb : ∀ p, List.Perm ((pr p).mproc.pm.boundary.map fun e => ({ e with cell := gid p e.cell } : BEdge)) (Q.Q.bedges.filter fun b => bowner b = p))
    (hf : ∀ p, ∀ c < (pr p).nc, (pr p).T.l2o.val c = c) {P : FlowParams} (hg : 0 < P.g) (ht : 0 < P.tinyH) (l : Limiter)
    (S : List (ℝ × (Fin N → Arr ℝ))) (hS : ∀ s ∈ S, ∀ p, (s.2 p).len = 3 * (pr p).nc) (dt : ℝ) {u : Fin N → Arr ℝ}
    (hu : ∀ p, (u p).len = 3 * (pr p).nc) {U : ℕ → Cons} (hU : ∀ p c, stateAt (u p) c = U (gid p c)) (hpos : ∀ γ, 0 ≤ (U γ).h)
    (hd : ∀ b ∈ Q.Q.bedges, ∀ qb, b.bc = .dirichlet qb → 0 ≤ qb.h) {M M' : Fin N → MusclC}
    (h1 : ∀ p, createMusclC P (pr p) (pr p).T.vz = some (M p)) (h2 : evaluationsMC l pr root S M = some M') :
    ∃ r, evaluationMC l pr root M' dt u = some r ∧ (∀ p, ∀ i < 3 * (pr p).nc, ((r p).2.val i).isSome) ∧ ∀ γ, ∀ k < 3,
      (∑ p, ∑ c ∈ range (pr p).nc, if gid p c = γ then ((r p).2.val (3 * c + k)).getD 0 else 0) = Q.divCeed P l U γ fun F => F.comp k := by
  obtain ⟨r, a1, a2⟩ := C114_divergence h P l S hS dt u hu h1 h2
  have hs : (fun p => stateAt (u p)) = fun (p : Fin N) (c : ℕ) => U (gid p c) := by funext p c; exact hU p c
  have hdef : ∀ p, (ceedDivergence2R P l (fun p => (pr p).mproc) gid (fun p => stateAt (u p)) p).isSome := by
    intro p
    refine C114_numbers hg ht l _ gid _ p (fun e _ => ?_) (fun e he qb hq => ?_)
    · rw [hU]; exact hpos _
    · have hm : ({ e with cell := gid p e.cell } : BEdge) ∈ (pr p).mproc.pm.boundary.map fun e => ({ e with cell := gid p e.cell } : BEdge) :=
        List.mem_map_of_mem he
      rw [(hb p).mem_iff] at hm
      exact hd _ (List.mem_filter.mp hm).1 qb hq
  choose f hf' using fun p => Option.isSome_iff_exists.mp (hdef p)
  have hval : ∀ p c, ∀ k < 3, (r p).2.val (3 * c + k) = some ((f p c).comp k) := fun p c k hk => (a2 p).2.1 (f p) (hf' p) c k hk
  refine ⟨r, a1, fun p i _ => ?_, fun γ k hk => ?_⟩
  · have hi : i = 3 * (i / 3) + i % 3 := (Nat.div_add_mod i 3).symm
    rw [hi, hval p (i / 3) (i % 3) (Nat.mod_lt _ (by omega))]
    rfl
  · have key := C85_ceed_partial hD hb (fun p => mproc_boundary_lt h p) (fun p c hc => hf p c hc) hg.le l U f (by
      intro p
      rw [← hs]
      exact hf' p) γ (linF_comp k)
    rw [← key]
    unfold localToGlobalAdd
    refine sum_congr rfl fun p _ => sum_congr rfl fun c _ => ?_
    rw [hval p c k hk]
    rfl

/-! ### Courant numbers -/

theorem musclCourant_zero {P : FlowParams} (ht : 0 < P.tinyH) (l : Limiter) (u : Fin N → Arr ℝ) (p : Fin N) (eta : Arr ℝ) (e k : ℕ) :
    musclCourant P (pr p).T eta (usedL l pr gid u p) (usedR l pr gid u p) 0 e k = some 0 := by
  unfold musclCourant musclFC
  obtain ⟨F, hF, -⟩ := edgeFluxCeed_some (P := P) ht (qL := usedL l pr gid u p e) (qR := usedR l pr gid u p e)
    ((pr p).T.sn.val ((pr p).T.internal.val e)) ((pr p).T.cn.val ((pr p).T.internal.val e))
    (computeDhv ((pr p).T.vz.val ((pr p).T.vertexIds.val (2 * (pr p).T.internal.val e)))
      ((pr p).T.vz.val ((pr p).T.vertexIds.val (2 * (pr p).T.internal.val e + 1)))
      (eta.val ((pr p).T.vertexIds.val (2 * (pr p).T.internal.val e))) (eta.val ((pr p).T.vertexIds.val (2 * (pr p).T.internal.val e + 1))))
    (show 0 ≤ (usedL l pr gid u p e).h from le_max_left _ _) (show 0 ≤ (usedR l pr gid u p e).h from le_max_left _ _)
  rw [hF]
  show some _ = some _
  congr 1
  dsimp only
  split_ifs <;> ring

/-- C114 (Courant numbers) is violated: on every mesh and after any evaluations the vector of the Courant numbers of the internal edges holds zeros only, because the
time step in the context of this operator is 0 and never set, although the Courant number of an edge with water on the left side is positive in each of these evaluations. So the
number that is reported, and the adaptive time step, know nothing of the internal edges. -/
theorem C114_courant_violated (h : MCProcs.Valid pr root gid nes nvs) {P : FlowParams} (hg : 0 < P.g) (ht : 0 < P.tinyH) (l : Limiter)
    (S : List (ℝ × (Fin N → Arr ℝ))) (hS : ∀ s ∈ S, ∀ p, (s.2 p).len = 3 * (pr p).nc) (hdt : ∀ s ∈ S, 0 < s.1)
    (harea : ∀ p c, 0 < (pr p).T.area.val c) (hlen : ∀ p e, 0 < (pr p).T.elen.val e) {M M' : Fin N → MusclC}
    (h1 : ∀ p, createMusclC P (pr p) (pr p).T.vz = some (M p)) (h2 : evaluationsMC l pr root S M = some M') (p : Fin N) :
    (∃ v, (M' p).interior.outVec 2 = some v ∧ v.len = 2 * (pr p).T.numOwnedInternal ∧ ∀ i < 2 * (pr p).T.numOwnedInternal, v.val i = some 0) ∧
      ∀ s ∈ S, ∀ e ∈ faceStates l (fun p => (pr p).mproc) gid (fun p => stateAt (s.2 p)) p, P.tinyH < e.qL.h →
        ∃ F, edgeFluxCeed P.g P.tinyH P.hAnuga e.qL e.qR e.sn e.cn 0 = some F ∧
          0 < cellCourant F.2 e.len ((pr p).T.area.val e.left) s.1 ∧ 0 < cellCourant F.2 e.len ((pr p).T.area.val e.right) s.1 := by
  choose M0 hM using fun p => createMusclC_spec P (h.each p) (pr p).T.vz
  obtain rfl : M0 = M := funext fun p => Option.some.inj ((hM p).1.symm.trans (h1 p))
  obtain ⟨M1, e1, e2⟩ := evaluationsMC_spec h P l (eta := fun p => (pr p).T.vz) (fun p => (h.each p).T.vz) S hS (fun p => (hM p).2)
  obtain rfl : M1 = M' := Option.some.inj (e1.symm.trans h2)
  obtain ⟨cn, c1, c2⟩ := e2 p
  obtain ⟨g, f, c, v, q, -, hI⟩ := c1.interior
  refine ⟨⟨cn, by rw [hI]; rfl, c1.cnLen, fun i hi => ?_⟩, fun s hs e he hw => ?_⟩
  · have hi' : i = 2 * (i / 2) + i % 2 := (Nat.div_add_mod i 2).symm
    rw [hi', c2 (i / 2) (by omega) (i % 2) (Nat.mod_lt _ (by omega))]
    have key : ∀ (S : List (ℝ × (Fin N → Arr ℝ))), S.foldl (fun (x : Num) s => x.add
        (musclCourant P (pr p).T (pr p).T.vz (usedL l pr gid s.2 p) (usedR l pr gid s.2 p) 0
          (((pr p).T.owned' (pr p).T.internal (pr p).T.internal.len).getD (i / 2) 0) (i % 2))) (some 0) = some 0 := by
      intro S
      induction S with
      | nil => rfl
      | cons s S ih => rw [List.foldl_cons, musclCourant_zero ht, Num.add_zero']; exact ih
    exact key S
  · unfold faceStates at he
    obtain ⟨m, hm, rfl⟩ := List.mem_map.mp he
    obtain ⟨ie, -, rfl⟩ := List.mem_map.mp (List.mem_filter.mp hm).1
    obtain ⟨F, hF, hp⟩ := edgeFluxCeed_some (P := P) ht
      (qL := (reconstructEdge l (pr p).mproc.ls (fieldOf (stateAt (s.2 p))) (commGradients (fun p => (pr p).mproc) gid (fun p => stateAt (s.2 p)) p)
        ((pr p).G.medge ie)).qL)
      (qR := (reconstructEdge l (pr p).mproc.ls (fieldOf (stateAt (s.2 p))) (commGradients (fun p => (pr p).mproc) gid (fun p => stateAt (s.2 p)) p)
        ((pr p).G.medge ie)).qR) ((pr p).G.medge ie).sn ((pr p).G.medge ie).cn 0 (le_max_left _ _) (le_max_left _ _)
    have hF2 := hp hg (Or.inl hw)
    refine ⟨F, hF, ?_, ?_⟩
    · exact mul_pos (div_pos (mul_pos hF2 (hlen p _)) (harea p _)) (hdt s hs)
    · exact mul_pos (div_pos (mul_pos hF2 (hlen p _)) (harea p _)) (hdt s hs)

/-! ### Example: the four squares of `SecondOrder.lean` on two processes -/

/-- the reflecting edge of each process: the lower edge of cell 0, and the upper edge of the cell 3 of the whole mesh -/
noncomputable def exWallEdge (p : Fin 2) : MEdge := ⟨if p = 0 then 0 else 2, 0, 0, 0, 1, 0, true, 1, 0, if p = 0 then -1 else 1⟩

/-- all edges of a process but one that no list names -/
noncomputable def exWithWall (p : Fin 2) : List MEdge := (exGrid2 p).edges ++ [exWallEdge p]

/-- tables for these edges: the internal edges are the first ones; the bed rises from vertex to vertex -/
noncomputable def exWallT (p : Fin 2) : CTables :=
  { (exTablesOf (exWithWall p) (exGrid2 p).pm.numCells (exGrid2 p).pm.owned (exGrid2 p).x (exGrid2 p).y).T with
    internal := ⟨(exGrid2 p).edges.length, fun k => k⟩
    cellIds := ⟨2 * ((exWithWall p).length + 1), fun j => if j = 2 * (exGrid2 p).edges.length + 1 then -1 else
      (exTablesOf (exWithWall p) (exGrid2 p).pm.numCells (exGrid2 p).pm.owned (exGrid2 p).x (exGrid2 p).y).T.cellIds.val j⟩
    vertexIds := ⟨2 * ((exWithWall p).length + 1), fun j => j⟩
    vz := ⟨2 * ((exWithWall p).length + 1), fun v => v⟩
    numOwnedInternal := 2 }

/-- the two processes -/
noncomputable def exMuscl (p : Fin 2) : MCProc where
  T := exWallT p
  points := (exTablesOf (exWithWall p) (exGrid2 p).pm.numCells (exGrid2 p).pm.owned (exGrid2 p).x (exGrid2 p).y).points
  centroids := (exTablesOf (exWithWall p) (exGrid2 p).pm.numCells (exGrid2 p).pm.owned (exGrid2 p).x (exGrid2 p).y).centroids
  nc := (exGrid2 p).pm.numCells
  n := if p = 0 then 1 else 3
  Bs := [⟨⟨1, fun _ => (exGrid2 p).edges.length⟩, .reflecting, ⟨3, fun _ => 0⟩⟩]

theorem exWithWall_length (p : Fin 2) : (exWithWall p).length = (exGrid2 p).edges.length + 1 := by
  unfold exWithWall
  rw [List.length_append]
  rfl

theorem exMuscl_G (p : Fin 2) : (exMuscl p).G.Valid (exMuscl p).nc (exMuscl p).n ((exWithWall p).length + 1) (2 * ((exWithWall p).length + 1)) := by
  have hl := exWithWall_length p
  have h0 := exTablesOf_valid (es := exWithWall p) (nc := (exGrid2 p).pm.numCells) (n := (exMuscl p).n) (owned := (exGrid2 p).pm.owned)
    (exGrid2 p).x (exGrid2 p).y (by fin_cases p <;> simp [exGrid2]) (by
      intro e he
      rcases List.mem_append.mp he with he | he
      · exact exGrid2_divides.valid p e he
      · rw [List.mem_singleton.mp he]
        fin_cases p <;> simp [exGrid2, exWallEdge]) (by
      intro c hc ho
      fin_cases p
      · simp [exGrid2, exMuscl] at *; omega
      · simp [exGrid2, exMuscl] at *; omega)
  have hc : ∀ j, j ≠ 2 * (exGrid2 p).edges.length + 1 → (exMuscl p).G.T.cellIds.val j =
      (exTablesOf (exWithWall p) (exGrid2 p).pm.numCells (exGrid2 p).pm.owned (exGrid2 p).x (exGrid2 p).y).T.cellIds.val j := fun j hj => if_neg hj
  refine ⟨⟨?_, rfl, rfl, rfl, rfl, rfl, rfl, rfl, ?_, ?_, h0.T.range⟩, ?_, rfl, rfl, fun j hj => hj, rfl, rfl, h0.inj⟩
  · intro e he
    show e < _
    have : e < (exGrid2 p).edges.length := he
    omega
  · intro id hid
    rw [hc _ (by omega)]
    exact h0.T.left id hid
  · intro id hid
    by_cases h : id = (exGrid2 p).edges.length
    · left
      exact if_pos (show 2 * id + 1 = 2 * (exGrid2 p).edges.length + 1 by omega)
    · rw [hc _ (by omega)]
      exact h0.T.right id hid
  · intro ie hie
    have hie' : ie < (exGrid2 p).edges.length := hie
    show (exMuscl p).G.T.cellIds.val (2 * ie + 1) ≠ -1
    rw [hc _ (by omega)]
    exact h0.two ie (show ie < (exWithWall p).length by omega)

theorem exMuscl_count (p : Fin 2) : ((exMuscl p).T.owned' (exMuscl p).T.internal (exMuscl p).T.internal.len).length = 2 := by
  fin_cases p <;> simp [exMuscl, exWallT, exWithWall, exWallEdge, CTables.owned', CTables.own, exTablesOf, exGrid2, List.range_succ]

theorem exMuscl_each (p : Fin 2) : (exMuscl p).Valid ((exWithWall p).length + 1) (2 * ((exWithWall p).length + 1)) where
  T :=
    { base := (exMuscl_G p).T
      edgeOwned := rfl
      l2o_lt := fun c hc => hc
      vertexIds := rfl
      vertex := fun k hk => hk
      vz := rfl
      two := fun e he _ => (exMuscl_G p).two e he
      count := (exMuscl_count p).symm }
  G := exMuscl_G p
  Bs := by
    intro B hB
    rw [List.mem_singleton.mp hB]
    refine ⟨fun e _ => ?_, rfl⟩
    show (exGrid2 p).edges.length < _
    rw [exWithWall_length]
    omega

theorem exMuscl_valid : MCProcs.Valid exMuscl exRoot exGridGid (fun p => (exWithWall p).length + 1) (fun p => 2 * ((exWithWall p).length + 1)) where
  procs :=
    { tables := exMuscl_G
      count := fun p => (exMuscl_count p).symm
      root := exPackedProcs_valid.root
      unique := exPackedProcs_valid.unique }
  each := exMuscl_each

theorem exMuscl_edges (p : Fin 2) : (exMuscl p).mproc.edges = (exGrid2 p).edges := by
  have hl := exWithWall_length p
  apply List.ext_getElem
  · show ((List.range (exGrid2 p).edges.length).map _).length = _
    simp
  · intro k h1 h2
    have hk : (exMuscl p).G.medge k = (exTablesOf (exWithWall p) (exGrid2 p).pm.numCells (exGrid2 p).pm.owned (exGrid2 p).x (exGrid2 p).y).medge k := by
      have hL : (exMuscl p).G.L k = (exTablesOf (exWithWall p) (exGrid2 p).pm.numCells (exGrid2 p).pm.owned (exGrid2 p).x (exGrid2 p).y).L k :=
        congrArg Int.toNat (if_neg (show ¬ 2 * k = 2 * (exGrid2 p).edges.length + 1 by omega))
      have hR : (exMuscl p).G.R k = (exTablesOf (exWithWall p) (exGrid2 p).pm.numCells (exGrid2 p).pm.owned (exGrid2 p).x (exGrid2 p).y).R k :=
        congrArg Int.toNat (if_neg (show ¬ 2 * k + 1 = 2 * (exGrid2 p).edges.length + 1 by omega))
      unfold GTables.medge
      rw [hL, hR]
      rfl
    have h3 : (exMuscl p).mproc.edges[k] = (exMuscl p).G.medge k := by
      have h4 := List.getElem_map (f := (exMuscl p).G.medge) (l := List.range (exMuscl p).T.internal.len) (i := k) (h := h1)
      rw [List.getElem_range] at h4
      exact h4
    rw [h3, hk, exTablesOf_medge _ _ _ _ _ (by omega)]
    unfold exWithWall
    rw [List.getD_eq_getElem?_getD, List.getElem?_append_left h2]
    simp [h2]

theorem exMuscl_boundary (p : Fin 2) : (exMuscl p).mproc.pm.boundary = (exGrid2 p).pm.boundary := by
  fin_cases p <;>
    simp [exMuscl, MCProc.mproc, ceedMeshOf, exWallT, exWithWall, exWallEdge, CTables.owned', CTables.own, exTablesOf, exGrid2, List.range_succ,
      Tables.leftOf, Bnd.cond]

theorem exMuscl_divides : MDivides exGrid (fun p => (exMuscl p).mproc) exGridGid (fun γ => if γ = 0 then 0 else 1)
    (fun p e => p == 1 || e.left == 0) (fun e => if e.left = 0 then 0 else 1) := by
  refine ⟨fun p e hm => ?_, exGrid2_divides.lt, exGrid2_divides.inj, exGrid2_divides.cover, exGrid2_divides.owned, fun _ _ _ => rfl,
    exGrid2_divides.x, exGrid2_divides.y, fun p => ?_, exGrid2_divides.sees⟩
  · rw [exMuscl_edges] at hm
    exact exGrid2_divides.valid p e hm
  · rw [exMuscl_edges]
    exact exGrid2_divides.edges p

example : ∃ M M', (∀ p, createMusclC exP (exMuscl p) (exMuscl p).T.vz = some (M p)) ∧
    evaluationsMC .vanLeer exMuscl exRoot [(0.1, exPackedU), (0.2, exPackedU)] M = some M' :=
  C114_defined exMuscl_valid exP .vanLeer _ (by
    intro s hs p
    rcases List.mem_cons.mp hs with rfl | hs
    · rfl
    · rw [List.mem_singleton.mp hs]; rfl)

/-- the second evaluation gives, in the cells of process 1, the divergences of the edges one by one -/
example (l : Limiter) : ∃ (M M' : Fin 2 → MusclC) (r : Fin 2 → MusclC × Arr Num) (f : ℕ → Flux),
    (∀ p, createMusclC exP (exMuscl p) (exMuscl p).T.vz = some (M p)) ∧ evaluationsMC l exMuscl exRoot [(0.1, exPackedU)] M = some M' ∧
    evaluationMC l exMuscl exRoot M' 0.1 exPackedU = some r ∧
    ceedDivergence2R exP l (fun p => (exMuscl p).mproc) exGridGid (fun p => stateAt (exPackedU p)) 1 = some f ∧ (r 1).2.val 7 = some (f 2).x := by
  have hS : ∀ s ∈ [((0.1 : ℝ), exPackedU)], ∀ p, (s.2 p).len = 3 * (exMuscl p).nc := by
    intro s hs p; rw [List.mem_singleton.mp hs]; rfl
  obtain ⟨M, M', h1, h2⟩ := C114_defined exMuscl_valid exP l [((0.1 : ℝ), exPackedU)] hS
  obtain ⟨r, h3, h4⟩ := C114_divergence exMuscl_valid exP l _ hS 0.1 exPackedU (fun _ => rfl) h1 h2
  obtain ⟨f, hf⟩ := Option.isSome_iff_exists.mp (C114_numbers (P := exP) (by norm_num [exP]) (by norm_num [exP]) l (fun p => (exMuscl p).mproc) exGridGid
    (fun p => stateAt (exPackedU p)) 1 (by
      intro e _
      rw [exPackedU_state]
      unfold exDepths
      positivity) (by
      intro e he qb hq
      rw [exMuscl_boundary] at he
      simp [exGrid2] at he
      rw [he] at hq
      cases hq))
  exact ⟨M, M', r, f, h1, h2, h3, hf, (h4 1).2.1 f hf 2 1 (by omega)⟩

/-- the entries of cell 0, which process 0 owns and process 1 has as a ghost, add up to its divergence on the undivided mesh -/
example (l : Limiter) : ∃ (M M' : Fin 2 → MusclC) (r : Fin 2 → MusclC × Arr Num),
    (∀ p, createMusclC exP (exMuscl p) (exMuscl p).T.vz = some (M p)) ∧ evaluationsMC l exMuscl exRoot [(0.1, exPackedU)] M = some M' ∧
    evaluationMC l exMuscl exRoot M' 0.1 exPackedU = some r ∧
    (∑ p, ∑ c ∈ range (exMuscl p).nc, if exGridGid p c = 0 then ((r p).2.val (3 * c + 0)).getD 0 else 0) =
      exGrid.divCeed exP l exDepths 0 fun F => F.comp 0 := by
  have hS : ∀ s ∈ [((0.1 : ℝ), exPackedU)], ∀ p, (s.2 p).len = 3 * (exMuscl p).nc := by
    intro s hs p; rw [List.mem_singleton.mp hs]; rfl
  obtain ⟨M, M', h1, h2⟩ := C114_defined exMuscl_valid exP l [((0.1 : ℝ), exPackedU)] hS
  obtain ⟨r, h3, -, h4⟩ := C114_whole_mesh_partial exMuscl_valid exMuscl_divides (P := exP)
    (bowner := fun b => if b.cell = 0 then 0 else 1)
    (fun p => by rw [exMuscl_boundary]; fin_cases p <;> simp [exGrid2, exGrid, exFour, exGridGid]) (fun p c _ => rfl) (by norm_num [exP]) (by norm_num [exP]) l _ hS 0.1
    (u := exPackedU) (fun _ => rfl) (U := exDepths) exPackedU_state (fun γ => by unfold exDepths; positivity) (by
      intro b hb qb hq
      simp [exGrid, exFour] at hb
      rcases hb with rfl | rfl <;> cases hq) h1 h2
  exact ⟨M, M', r, h1, h2, h3, h4 0 0 (by omega)⟩

/-- depths 1, 2, 3, 4: the two internal edges of process 0 have positive Courant numbers, their vector holds zeros -/
example (l : Limiter) : ∃ (M M' : Fin 2 → MusclC), (∀ p, createMusclC exP (exMuscl p) (exMuscl p).T.vz = some (M p)) ∧
    evaluationsMC l exMuscl exRoot [(0.1, exPackedU)] M = some M' ∧ ∃ v, (M' 0).interior.outVec 2 = some v ∧ ∀ i < 4, v.val i = some 0 := by
  have hS : ∀ s ∈ [((0.1 : ℝ), exPackedU)], ∀ p, (s.2 p).len = 3 * (exMuscl p).nc := by
    intro s hs p; rw [List.mem_singleton.mp hs]; rfl
  obtain ⟨M, M', h1, h2⟩ := C114_defined exMuscl_valid exP l [((0.1 : ℝ), exPackedU)] hS
  obtain ⟨⟨v, a1, -, a3⟩, -⟩ := C114_courant_violated exMuscl_valid (P := exP) (by norm_num [exP]) (by norm_num [exP]) l _ hS
    (by intro s hs; rw [List.mem_singleton.mp hs]; norm_num) (fun _ _ => one_pos) (by
      intro p e
      show 0 < ((exWithWall p).getD e exNoEdge).len
      rw [List.getD_eq_getElem?_getD]
      cases he : (exWithWall p)[e]? with
      | none => exact one_pos
      | some m =>
        have hm : m ∈ exWithWall p := List.mem_of_getElem? he
        show 0 < m.len
        have h1 : m.len = 1 := by
          fin_cases p
          · simp only [exWithWall, exGrid2, Fin.zero_eta, if_true, List.cons_append, List.nil_append, List.mem_cons, List.not_mem_nil, or_false] at hm
            rcases hm with rfl | rfl | rfl <;> rfl
          · simp only [exWithWall, exGrid2, Fin.mk_one, one_ne_zero, if_false, List.cons_append, List.nil_append, List.mem_cons, List.not_mem_nil,
              or_false] at hm
            rcases hm with rfl | rfl | rfl | rfl | rfl <;> rfl
        rw [h1]; exact one_pos) h1 h2 0
  exact ⟨M, M', h1, h2, v, a1, a3⟩

end RDy
