import Verif.Lemmas.CeedTOp
import Verif.Props.CeedOp
import Verif.Props.Batched
import Mathlib.Tactic

/-!
# The flux operators of the CEED backend in runs with sediment, as they are put together (C116)

`createFluxT` builds the operators from the arrays of the mesh, `fluxEvaluationT` is one evaluation of the flux divergences. `nt` is the number of
tracers, so that there are `3 + nt` components per cell; `mem` is what the arrays hold that a Q-function does not write.
-/

namespace RDy

/-! ### Specification -/

/-- Specification: the row of edge `e` of a list of edges when rows are given to owned edges only. -/
def CTables.packedRow (T : CTables) (ids : Arr ℕ) (e : ℕ) : ℕ := ((List.range e).filter fun i => T.edgeOwned.val (ids.val i)).length

/-- Specification: no edge on a Dirichlet boundary that the process owns is dry on both sides. -/
def TBnd.WetOn (B : TBnd) (P : FlowParams) (nt : ℕ) (T : CTables) (u : Arr ℝ) : Prop :=
  B.type = .dirichlet → ∀ e < B.ids.len, T.edgeOwned.val (B.ids.val e) = true →
    u.val ((3 + nt) * T.leftOf (B.ids.val e)) > P.tinyH ∨ B.values.val ((3 + nt) * e) > P.tinyH

/-- Specification: the mesh whose internal edges are those of the process, and the boundary edges of the process, with their conditions. -/
noncomputable def ownEdges (nt : ℕ) (T : CTables) (Bs : List TBnd) : List TBEdge :=
  Bs.flatMap fun B => ((List.range B.ids.len).filter fun e => T.edgeOwned.val (B.ids.val e)).map fun e =>
    ⟨T.leftOf (B.ids.val e), T.elen.val (B.ids.val e), T.sn.val (B.ids.val e), T.cn.val (B.ids.val e),
      match B.type with
      | .dirichlet => .dirichlet (tStateAt nt B.values e)
      | .reflecting => .reflecting⟩

/-- Specification: component `k` of the flux from a cell in state `q` to a state `s` behind the edge. -/
noncomputable def fluxTo (sv : TSolver) (P : FlowParams) (nt : ℕ) (q s : TCons) (sn cn : ℝ) (k : ℕ) : Num :=
  (tracerFluxCeed sv P.g P.tinyH nt q s sn cn).map fun F => F k

/-- Specification: the Courant number of internal edge `id` for its left (`k = 0`) or right cell. -/
noncomputable def edgeCourantTOf (P : FlowParams) (nt : ℕ) (T : CTables) (dt : ℝ) (u : Arr ℝ) (id k : ℕ) : Num :=
  (tracerAmaxCeed P.g P.tinyH (tStateAt nt u (T.leftOf id)) (tStateAt nt u (T.R id)) (T.sn.val id) (T.cn.val id)).map fun a =>
    a * (T.elen.val id / T.area.val (if k = 0 then T.leftOf id else T.R id)) * dt

/-- Specification: the Courant number of edge `e` of a boundary: the state behind it is the given one or the mirrored one. -/
noncomputable def bndCourantTOf (P : FlowParams) (nt : ℕ) (T : CTables) (B : TBnd) (dt : ℝ) (u : Arr ℝ) (e : ℕ) : Num :=
  (tracerAmaxCeed P.g P.tinyH (tStateAt nt u (T.leftOf (B.ids.val e)))
    (match B.type with
      | .dirichlet => tStateAt nt B.values e
      | .reflecting => reflectTCeed (tStateAt nt u (T.leftOf (B.ids.val e))) (T.sn.val (B.ids.val e)) (T.cn.val (B.ids.val e)))
    (T.sn.val (B.ids.val e)) (T.cn.val (B.ids.val e))).map fun a =>
    a * (T.elen.val (B.ids.val e) / T.area.val (T.leftOf (B.ids.val e))) * dt

variable {T : CTables} {nc n ne nv nt : ℕ}

private theorem wet_of {B : TBnd} {P : FlowParams} {u : Arr ℝ} (h : B.WetOn P nt T u) : B.Wet P nt T u := by
  intro ht e he
  obtain ⟨h1, h2⟩ := owned'_mem he
  exact h ht e h1 h2

/-! ### Definedness -/

/-- C116 (definedness, the part that holds): with at most five tracers, creation and any number of evaluations are defined if no owned edge on a Dirichlet boundary is
dry on both sides. Missing: without these conditions, see `C116_many_tracers_violated` and `C116_dry_violated`. -/
theorem C116_defined_partial (sv : TSolver) (P : FlowParams) (mem : Mem) (hn : nt ≤ 5) (hT : T.Valid nc n ne nv) {Bs : List TBnd}
    (hB : ∀ B ∈ Bs, B.Valid ne nt) (l : List (ℝ × Arr ℝ)) (hl : ∀ s ∈ l, s.2.len = (3 + nt) * nc)
    (hw : ∀ s ∈ l, ∀ B ∈ Bs, B.WetOn P nt T s.2) :
    ∃ ops ops', createFluxT sv P nt mem T Bs = some ops ∧ fluxEvaluationsT nt nc l ops = some ops' := by
  obtain ⟨ops, h1, h2, -⟩ := createFluxT_spec sv P mem hT hB
  obtain ⟨ops', h3, -⟩ := evaluations_specT sv P mem hn hT hB l ops hl (fun s hs B hb => wet_of (hw s hs B hb)) h2
  exact ⟨ops, ops', h1, h3⟩

/-! ### The flux divergences -/

/-- C116 (flux divergences): after any evaluations before, and whatever the memory holds, an evaluation gives for every component of every
cell the flux divergence that results from treating the owned edges one by one, provided these are numbers. -/
theorem C116_divergence (sv : TSolver) (P : FlowParams) (mem : Mem) (hn : nt ≤ 5) (hT : T.Valid nc n ne nv) {Bs : List TBnd}
    (hB : ∀ B ∈ Bs, B.Valid ne nt) (l : List (ℝ × Arr ℝ)) (hl : ∀ s ∈ l, s.2.len = (3 + nt) * nc)
    (hw : ∀ s ∈ l, ∀ B ∈ Bs, B.WetOn P nt T s.2) (dt : ℝ) (u : Arr ℝ) (hu : u.len = (3 + nt) * nc) (hwu : ∀ B ∈ Bs, B.WetOn P nt T u)
    {ops ops' : List COp} (h1 : createFluxT sv P nt mem T Bs = some ops) (h2 : fluxEvaluationsT nt nc l ops = some ops') :
    ∃ ops'' rhs, fluxEvaluationT nt nc dt u ops' = some (ops'', rhs) ∧ rhs.len = (3 + nt) * nc ∧
      ∀ f, ceedTDiv false sv P nt (ceedMeshOf T [] nc) (ownEdges nt T Bs) (tStateAt nt u) = some f →
        ∀ c, ∀ k < 3 + nt, rhs.val ((3 + nt) * c + k) = some (f c k) := by
  obtain ⟨ops0, e1, e2, -⟩ := createFluxT_spec sv P mem hT hB
  obtain rfl : ops0 = ops := Option.some.inj (e1.symm.trans h1)
  obtain ⟨ops1, e3, e4⟩ := evaluations_specT sv P mem hn hT hB l ops0 hl (fun s hs B hb => wet_of (hw s hs B hb)) e2
  obtain rfl : ops1 = ops' := Option.some.inj (e3.symm.trans h2)
  obtain ⟨ops'', rhs, i1, -, i3, i4, -⟩ := evaluation_specT sv P mem hn hT hu dt hB (fun B hb => wet_of (hwu B hb)) e4
  exact ⟨ops'', rhs, i1, i3, fun f hf c k hk => (i4 c k hk).trans (divergence_entryT sv P hT Bs hf c k)⟩

/-! ### Boundary fluxes -/

/-- C116 (vector of boundary fluxes, the part that holds): on a Dirichlet boundary, after any evaluations the row of an owned edge holds the *sum* of its
fluxes in all of them. Missing: that it is the flux of the last evaluation (as for `C110_flux_violated`), and reflecting walls, see
`C116_wall_flux_violated`. -/
theorem C116_flux_partial (sv : TSolver) (P : FlowParams) (mem : Mem) (hn : nt ≤ 5) (hT : T.Valid nc n ne nv) {Bs : List TBnd}
    (hB : ∀ B ∈ Bs, B.Valid ne nt) (l : List (ℝ × Arr ℝ)) (hl : ∀ s ∈ l, s.2.len = (3 + nt) * nc)
    (hw : ∀ s ∈ l, ∀ B ∈ Bs, B.WetOn P nt T s.2)
    {ops ops' : List COp} (h1 : createFluxT sv P nt mem T Bs = some ops) (h2 : fluxEvaluationsT nt nc l ops = some ops')
    {b : ℕ} {B : TBnd} (hb : Bs[b]? = some B) (ht : B.type = .dirichlet) :
    ∃ op v, ops'[b + 1]? = some op ∧ op.fluxVec = some v ∧ ∀ e < B.ids.len, T.edgeOwned.val (B.ids.val e) = true → ∀ k < 3 + nt,
      v.val ((3 + nt) * T.packedRow B.ids e + k) =
        (l.map fun s => fluxTo sv P nt (tStateAt nt s.2 (T.leftOf (B.ids.val e))) (tStateAt nt B.values e)
          (T.sn.val (B.ids.val e)) (T.cn.val (B.ids.val e)) k).foldl Num.add (some 0) := by
  obtain ⟨ops0, e1, e2, e3⟩ := createFluxT_spec sv P mem hT hB
  obtain rfl : ops0 = ops := Option.some.inj (e1.symm.trans h1)
  clear h1
  induction l using List.reverseRecOn generalizing ops' with
  | nil =>
    obtain rfl : ops0 = ops' := Option.some.inj h2
    obtain ⟨g, o, fl, cn, bops, -, -, -, rfl, hf⟩ := e2
    obtain ⟨op, i1, g', o', fl', cn', -, hlen, -, rfl⟩ := forall₂_getElem? hf hb
    obtain ⟨op', j1, j2, -⟩ := forall₂_getElem? e3 hb
    refine ⟨op', _, j1, j2, fun e he ho k hk => rfl⟩
  | append_singleton l s ih =>
    rw [evaluations_append] at h2
    have hl' : ∀ s' ∈ l, s'.2.len = (3 + nt) * nc := fun s' h => hl s' (List.mem_append_left _ h)
    have hw' : ∀ s' ∈ l, ∀ B ∈ Bs, B.WetOn P nt T s'.2 := fun s' h => hw s' (List.mem_append_left _ h)
    obtain ⟨o1, h3, h4⟩ := Option.bind_eq_some_iff.mp h2
    obtain ⟨op, v, i1, i2, i3⟩ := ih hl' hw' h3
    obtain ⟨o2, q1, q2⟩ := evaluations_specT sv P mem hn hT hB l ops0 hl' (fun s hs B hb => wet_of (hw' s hs B hb)) e2
    obtain rfl : o2 = o1 := Option.some.inj (q1.symm.trans h3)
    have hsm : s ∈ l ++ [s] := List.mem_append_right _ List.mem_cons_self
    obtain ⟨o3, rhs, r1, -, -, -, -, r5⟩ := evaluation_specT sv P mem hn hT (hl s hsm) s.1 hB (fun B hb => wet_of (hw s hsm B hb)) q2
    rw [r1] at h4
    obtain rfl : o3 = ops' := Option.some.inj h4
    obtain ⟨op1, op2, w1, w2, fl, cn, fl', cn', w3, w4, -, -, w5, -⟩ := r5 b B hb
    obtain rfl : op = op1 := Option.some.inj (i1.symm.trans w1)
    obtain rfl : v = fl := Option.some.inj (i2.symm.trans w3)
    refine ⟨op2, fl', w2, w4, fun e he ho k hk => ?_⟩
    obtain ⟨j1, j2⟩ := owned'_getD T B.ids ho _ he
    obtain ⟨x, x1, x2⟩ := w5 (T.owned' B.ids e).length j1
    have h := x2 k hk
    rw [x1.1 ht, j2] at h
    rw [List.map_append, List.foldl_append, ← i3 e he ho k hk]
    refine Eq.trans h (congrArg _ ?_)
    show _ = fluxTo sv P nt _ _ _ _ k
    unfold bEdgeFT TBnd.cond fluxTo
    rw [ht]
    rfl

/-! ### Courant numbers -/

/-- Specification: the velocity of a state, 0 if it is dry. -/
noncomputable def wetVelocity (tinyH h q : ℝ) : ℝ := if h > tinyH then q / h else 0

/-- C116 (the speed in the Courant numbers): if one side of an edge is wet and no depth is 0, the speed is that of gravity waves on the mean depth plus the normal
component of the mean of the velocities weighted with the roots of the depths (a film counts as still); if both sides are dry it is 0. Tracers have no influence. -/
theorem C116_speed {g tinyH : ℝ} (qL qR : TCons) (sn cn : ℝ) :
    ((qL.q.h > tinyH ∨ qR.q.h > tinyH) → 0 < qL.q.h → 0 < qR.q.h → tracerAmaxCeed g tinyH qL qR sn cn =
      some (√(g * ((qL.q.h + qR.q.h) / 2)) +
        |(√qL.q.h * (wetVelocity tinyH qL.q.h qL.q.hu * cn + wetVelocity tinyH qL.q.h qL.q.hv * sn) +
          √qR.q.h * (wetVelocity tinyH qR.q.h qR.q.hu * cn + wetVelocity tinyH qR.q.h qR.q.hv * sn)) / (√qL.q.h + √qR.q.h)|)) ∧
    (qL.q.h ≤ tinyH → qR.q.h ≤ tinyH → tracerAmaxCeed g tinyH qL qR sn cn = some 0) := by
  constructor
  · intro hw hl hr
    have hs : ∀ a h : ℝ, 0 < h → safeDiv a h h tinyH = some (wetVelocity tinyH h a) := by
      intro a h hh
      unfold safeDiv wetVelocity
      by_cases h1 : h > tinyH
      · rw [if_pos h1, if_pos h1, if_neg hh.ne']
      · rw [if_neg h1, if_neg h1]
    unfold tracerAmaxCeed
    rw [if_pos hw]
    unfold tracerVelocitiesCeed
    rw [hs _ _ hl, hs _ _ hl, hs _ _ hr, hs _ _ hr]
    dsimp only [Option.bind_some]
    rw [if_neg (fun h => h.2.elim hl.ne' hr.ne')]
    dsimp only [Option.bind_some]
    rw [if_pos ⟨hl.le, hr.le, by linarith⟩]
    unfold roeEigCeed
    dsimp only
    unfold roeC uperp roeAvg
    congr 2
    · congr 1; ring
    · congr 1; ring
  · intro hl hr
    unfold tracerAmaxCeed
    rw [if_neg (by rintro (h | h) <;> linarith)]

/-- a wet cell beside a film that is thinner than `tiny_h`: the film counts as still -/
example : tracerAmaxCeed 2 0.01 ⟨⟨1, 3, 0⟩, fun _ => 7⟩ ⟨⟨0.0001, 5, 0⟩, fun _ => 0⟩ 0 1 =
    some (√(2 * ((1 + 0.0001) / 2)) + |(√1 * 3) / (√1 + √0.0001)|) := by
  have h := (C116_speed (g := 2) (tinyH := 0.01) ⟨⟨1, 3, 0⟩, fun _ => 7⟩ ⟨⟨0.0001, 5, 0⟩, fun _ => 0⟩ 0 1).1
    (Or.inl (by norm_num)) (by norm_num) (by norm_num)
  rw [h]
  norm_num [wetVelocity]

/-- C116 (vectors of Courant numbers, the part that holds): an evaluation *adds* to the rows of an owned edge its Courant numbers. Missing: that
the rows hold those of the last evaluation (as in `C110_courant_partial`). -/
theorem C116_courant_partial (sv : TSolver) (P : FlowParams) (mem : Mem) (hn : nt ≤ 5) (hT : T.Valid nc n ne nv) {Bs : List TBnd}
    (hB : ∀ B ∈ Bs, B.Valid ne nt) (l : List (ℝ × Arr ℝ)) (hl : ∀ s ∈ l, s.2.len = (3 + nt) * nc)
    (hw : ∀ s ∈ l, ∀ B ∈ Bs, B.WetOn P nt T s.2) (dt : ℝ) (u : Arr ℝ) (hu : u.len = (3 + nt) * nc) (hwu : ∀ B ∈ Bs, B.WetOn P nt T u)
    {ops ops' ops'' : List COp} {rhs : Arr Num} (h1 : createFluxT sv P nt mem T Bs = some ops)
    (h2 : fluxEvaluationsT nt nc l ops = some ops') (h3 : fluxEvaluationT nt nc dt u ops' = some (ops'', rhs)) :
    (∃ v v', ops'[0]?.bind (fun op => op.outVec 3) = some v ∧ ops''[0]?.bind (fun op => op.outVec 3) = some v' ∧
      ∀ e < T.internal.len, T.edgeOwned.val (T.internal.val e) = true → ∀ k < 2, v'.val (2 * T.packedRow T.internal e + k) =
        (v.val (2 * T.packedRow T.internal e + k)).add (edgeCourantTOf P nt T dt u (T.internal.val e) k)) ∧
    ∀ (b : ℕ) (B : TBnd), Bs[b]? = some B → ∃ v v',
      ops'[b + 1]?.bind (fun op => op.outVec 2) = some v ∧ ops''[b + 1]?.bind (fun op => op.outVec 2) = some v' ∧
      ∀ e < B.ids.len, T.edgeOwned.val (B.ids.val e) = true → v'.val (T.packedRow B.ids e) =
        (v.val (T.packedRow B.ids e)).add (bndCourantTOf P nt T B dt u e) := by
  obtain ⟨ops0, e1, e2, -⟩ := createFluxT_spec sv P mem hT hB
  obtain rfl : ops0 = ops := Option.some.inj (e1.symm.trans h1)
  obtain ⟨ops1, e3, e4⟩ := evaluations_specT sv P mem hn hT hB l ops0 hl (fun s hs B hb => wet_of (hw s hs B hb)) e2
  obtain rfl : ops1 = ops' := Option.some.inj (e3.symm.trans h2)
  obtain ⟨ops2, rhs2, i1, -, -, -, ⟨cn, cn', k1, k2, k3⟩, i6⟩ := evaluation_specT sv P mem hn hT hu dt hB (fun B hb => wet_of (hwu B hb)) e4
  obtain ⟨rfl, rfl⟩ := Prod.mk.inj (Option.some.inj (i1.symm.trans h3))
  refine ⟨⟨cn, cn', k1, k2, fun e he ho k hk => ?_⟩, fun b B hb => ?_⟩
  · obtain ⟨j1, j2⟩ := owned'_getD T T.internal ho _ he
    have h := k3 (T.owned' T.internal e).length (by rw [hT.count]; exact j1) k hk
    rw [j2] at h
    refine Eq.trans h (congrArg _ ?_)
    unfold edgeCourantT edgeAT edgeCourantTOf
    congr 1
    funext a
    by_cases h0 : k = 0
    · rw [if_pos h0, if_pos h0]; ring
    · rw [if_neg h0, if_neg h0]
  · obtain ⟨op1, op2, w1, w2, fl, cn, fl', cn', -, -, w3, w4, -, w5⟩ := i6 b B hb
    refine ⟨cn, cn', by rw [w1]; exact w3, by rw [w2]; exact w4, fun e he ho => ?_⟩
    obtain ⟨j1, j2⟩ := owned'_getD T B.ids ho _ he
    have h := w5 (T.owned' B.ids e).length j1
    rw [j2] at h
    refine Eq.trans h (congrArg _ ?_)
    unfold bEdgeAT bOtherT bndCourantTOf tbWeight
    congr 1
    funext a
    ring

/-! ### Examples -/

/-- the Dirichlet boundary with edge 2, which gives the state in the cells -/
noncomputable def exTDB : TBnd := ⟨⟨1, fun _ => 2⟩, .dirichlet, ⟨4, fun j => if j = 0 then 1 else if j = 3 then 0.25 else 0⟩⟩

/-- a wall in its place -/
noncomputable def exTWall : TBnd := ⟨⟨1, fun _ => 2⟩, .reflecting, ⟨4, fun _ => 0⟩⟩

theorem exTDB_valid : exTDB.Valid 3 1 := ⟨fun e _ => by show 2 < 3; omega, rfl⟩

theorem exTWall_valid : exTWall.Valid 3 1 := ⟨fun e _ => by show 2 < 3; omega, rfl⟩

theorem exTDB_wet (u : Arr ℝ) : exTDB.WetOn exCP 1 exCT u := by
  intro _ e he _
  right
  have : e = 0 := by have : e < 1 := he; omega
  subst this
  simp only [exTDB, exCP]
  norm_num

theorem exTWall_wet (u : Arr ℝ) : exTWall.WetOn exCP 1 exCT u := fun h => absurd h nofun

/-- no water at all -/
noncomputable def exTDry : Arr ℝ := ⟨8, fun _ => 0⟩

/-- the Dirichlet boundary without water -/
noncomputable def exTDryB : TBnd := ⟨⟨1, fun _ => 2⟩, .dirichlet, ⟨4, fun _ => 0⟩⟩

theorem exTDryB_valid : exTDryB.Valid 3 1 := ⟨fun e _ => by show 2 < 3; omega, rfl⟩

example : ∃ ops ops', createFluxT .roe exCP 1 (fun _ _ _ => none) exCT [exTDB, exTWall] = some ops ∧
    fluxEvaluationsT 1 2 [(1, exTU), (2, exTU)] ops = some ops' :=
  C116_defined_partial .roe exCP _ (by norm_num) exCT_valid (by simpa using ⟨exTDB_valid, exTWall_valid⟩) _
    (by intro s hs; simp at hs; rcases hs with rfl | rfl <;> rfl)
    (by intro s _ B hB; simp at hB; rcases hB with rfl | rfl; exacts [exTDB_wet _, exTWall_wet _])

/-- the results are numbers -/
example {ops ops' : List COp} (h1 : createFluxT .roe exCP 1 (fun _ _ _ => none) exCT [exTDB, exTWall] = some ops)
    (h2 : fluxEvaluationsT 1 2 [(1, exTDry)] ops = some ops') :
    ∃ ops'' rhs, fluxEvaluationT 1 2 1 exTDry ops' = some (ops'', rhs) ∧ rhs.len = 8 :=
  let ⟨ops'', rhs, i1, i2, _⟩ := C116_divergence .roe exCP _ (by norm_num) exCT_valid (Bs := [exTDB, exTWall])
    (by simpa using ⟨exTDB_valid, exTWall_valid⟩) [(1, exTDry)] (by intro s hs; simp at hs; subst hs; rfl)
    (by intro s _ B hB; simp at hB; rcases hB with rfl | rfl; exacts [exTDB_wet _, exTWall_wet _]) 1 exTDry rfl
    (by intro B hB; simp at hB; rcases hB with rfl | rfl; exacts [exTDB_wet _, exTWall_wet _]) h1 h2
  ⟨ops'', rhs, i1, i2⟩

/-- in a dry domain with walls the divergences are numbers: zeros -/
example : ∃ f, ceedTDiv false .roe exCP 1 (ceedMeshOf exCT [] 2) (ownEdges 1 exCT [exTWall]) (tStateAt 1 exTDry) = some f ∧ f 0 1 = 0 := by
  refine ⟨fun _ _ => 0, ?_, rfl⟩
  have hd : ∀ c, (tStateAt 1 exTDry c).q.h = 0 := fun c => rfl
  have hf : ∀ (c d : ℕ) (sn cn : ℝ), tracerFluxCeed .roe exCP.g exCP.tinyH 1 (tStateAt 1 exTDry c) (tStateAt 1 exTDry d) sn cn =
      some fun _ => 0 := by
    intro c d sn cn
    unfold tracerFluxCeed
    rw [if_neg]
    rw [hd, hd]
    simp only [exCP]
    norm_num
  have ha : ∀ (i : ℕ) (s : ℝ), addAtT (fun _ _ => 0) i (fun _ => 0) s = fun _ _ => 0 := by
    intro i s
    funext c k
    unfold addAtT
    by_cases h : c = i
    · rw [if_pos h]; simp
    · rw [if_neg h]
  have e1 : ∀ e, ceedTEdge .roe exCP 1 (ceedMeshOf exCT [] 2) (tStateAt 1 exTDry) (fun _ _ => 0) e = some fun _ _ => 0 := by
    intro e
    unfold ceedTEdge
    cases e.right with
    | none => rfl
    | some r =>
      dsimp only
      rw [hf]
      exact congrArg some (by dsimp only; rw [ha, ha])
  have e2 : ∀ e ∈ ownEdges 1 exCT [exTWall],
      ceedTBEdge .roe exCP 1 (ceedMeshOf exCT [] 2) (tStateAt 1 exTDry) (fun _ _ => 0) e = some fun _ _ => 0 := by
    intro e he
    have hbc : e.bc = .reflecting := by
      unfold ownEdges at he
      rw [List.flatMap_cons, List.flatMap_nil, List.append_nil, List.mem_map] at he
      obtain ⟨i, -, rfl⟩ := he
      rfl
    unfold ceedTBEdge
    rw [hbc]
    unfold boundaryTFluxCeed
    dsimp only
    rw [if_neg (by rw [hd]; simp only [exCP]; norm_num)]
    exact congrArg some (ha _ _)
  have fold : ∀ {α : Type} (step : (ℕ → ℕ → ℝ) → α → Option (ℕ → ℕ → ℝ)) (l : List α),
      (∀ e ∈ l, step (fun _ _ => 0) e = some fun _ _ => 0) → l.foldlM step (fun _ _ => 0) = some fun _ _ => 0 := by
    intro α step l
    induction l with
    | nil => intro _; rfl
    | cons a l ih =>
      intro h
      rw [List.foldlM_cons, h a List.mem_cons_self]
      exact ih fun e he => h e (List.mem_cons_of_mem _ he)
  unfold ceedTDiv
  rw [if_neg (by decide), fold _ _ fun e _ => e1 e]
  exact fold _ _ e2

example {ops ops' : List COp} (h1 : createFluxT .roe exCP 1 (fun _ _ _ => none) exCT [exTDB, exTWall] = some ops)
    (h2 : fluxEvaluationsT 1 2 [(1, exTU), (2, exTU)] ops = some ops') :
    ∃ op v, ops'[1]? = some op ∧ op.fluxVec = some v ∧
      v.val 3 = ((Num.add (some 0) (fluxTo .roe exCP 1 (tStateAt 1 exTU 0) (tStateAt 1 exTDB.values 0) 0 1 3)).add
        (fluxTo .roe exCP 1 (tStateAt 1 exTU 0) (tStateAt 1 exTDB.values 0) 0 1 3)) := by
  obtain ⟨op, v, i1, i2, i3⟩ := C116_flux_partial .roe exCP _ (by norm_num) exCT_valid (Bs := [exTDB, exTWall])
    (by simpa using ⟨exTDB_valid, exTWall_valid⟩) [(1, exTU), (2, exTU)]
    (by intro s hs; simp at hs; rcases hs with rfl | rfl <;> rfl)
    (by intro s _ B hB; simp at hB; rcases hB with rfl | rfl; exacts [exTDB_wet _, exTWall_wet _]) h1 h2 (b := 0) rfl rfl
  exact ⟨op, v, i1, i2, i3 0 (by show 0 < 1; omega) rfl 3 (by omega)⟩

example {ops ops' ops'' : List COp} {rhs : Arr Num} (h1 : createFluxT .upwind exCP 1 (fun _ _ _ => none) exCT [exTWall] = some ops)
    (h2 : fluxEvaluationsT 1 2 [(1, exTU)] ops = some ops') (h3 : fluxEvaluationT 1 2 2 exTU ops' = some (ops'', rhs)) :
    ∃ v v', ops'[1]?.bind (fun op => op.outVec 2) = some v ∧ ops''[1]?.bind (fun op => op.outVec 2) = some v' ∧
      v'.val 0 = (v.val 0).add (bndCourantTOf exCP 1 exCT exTWall 2 exTU 0) := by
  obtain ⟨v, v', i1, i2, i3⟩ := (C116_courant_partial .upwind exCP _ (by norm_num) exCT_valid (Bs := [exTWall]) (by simpa using exTWall_valid)
    [(1, exTU)] (by intro s hs; simp at hs; subst hs; rfl) (by intro s _ B hB; simp at hB; subst hB; exact exTWall_wet _) 2 exTU rfl
    (by intro B hB; simp at hB; subst hB; exact exTWall_wet _) h1 h2 h3).2 0 exTWall rfl
  exact ⟨v, v', i1, i2, i3 0 (by show 0 < 1; omega) rfl⟩

/-! ### What does not hold -/

/-- C116 (violated, definedness): an evaluation is undefined as soon as an owned edge on a Dirichlet boundary is dry on both sides: the Q-function then
writes `courant_num[1][i] = 0`, but this output has one component (`/repo/src/tracer/tracer_fluxes_ceed.h:135`,
`/repo/src/operator_fluxes_ceed.c:449-452`). Here an empty domain next to a boundary that lets no water in. -/
theorem C116_dry_violated (sv : TSolver) (mem : Mem) (dt : ℝ) :
    ∃ ops, createFluxT sv exCP 1 mem exCT [exTDryB] = some ops ∧ fluxEvaluationT 1 2 dt exTDry ops = none := by
  obtain ⟨ops, h1, h2, -⟩ := createFluxT_spec sv exCP mem exCT_valid (nt := 1) (Bs := [exTDryB]) (by simpa using exTDryB_valid)
  refine ⟨ops, h1, ?_⟩
  obtain ⟨g, o, fl, cn, bops, -, -, -, rfl, hf⟩ := h2
  obtain ⟨op, i1, g', o', fl', cn', hR, -, -, rfl⟩ := forall₂_getElem? hf (i := 0) (a := exTDryB) rfl
  have hj : 0 < (exCT.owned' exTDryB.ids exTDryB.ids.len).length := by
    have := owned'_getD exCT exTDryB.ids (e := 0) rfl exTDryB.ids.len (by show 0 < 1; omega)
    omega
  refine compositeAdd_none (j := 0) hj ?_ _ _ (List.mem_cons_of_mem _ (List.mem_of_getElem? i1))
  refine boundary_point_dry sv exCP mem exCT_valid exTDryB_valid hR rfl rfl fl' cn' dt hj ?_ ?_
  · show (0 : ℝ) ≤ exCP.tinyH
    simp only [exCP]; norm_num
  · show (0 : ℝ) ≤ exCP.tinyH
    simp only [exCP]; norm_num

/-- C116 (violated, fluxes through walls): the Q-function of reflecting walls never writes the fluxes it is asked for
(`/repo/src/tracer/tracer_fluxes_ceed.h:151-203`), so that what is recorded for a wall can be any value, whatever the state is. -/
theorem C116_wall_flux_violated (sv : TSolver) (x : ℝ) :
    ∃ mem ops ops' op v rhs, createFluxT sv exCP 1 mem exCT [exTWall] = some ops ∧ fluxEvaluationT 1 2 1 exTU ops = some (ops', rhs) ∧
      ops'[1]? = some op ∧ op.fluxVec = some v ∧ ∀ k < 4, v.val k = some x := by
  refine ⟨fun _ _ _ => some x, ?_⟩
  obtain ⟨ops, h1, h2, h3⟩ := createFluxT_spec sv exCP (fun _ _ _ => some x) exCT_valid (nt := 1) (Bs := [exTWall])
    (by simpa using exTWall_valid)
  obtain ⟨ops', rhs, i1, -, -, -, -, i6⟩ := evaluation_specT sv exCP (fun _ _ _ => some x) (nt := 1) (by unfold maxSedimentClasses; omega) exCT_valid (u := exTU) rfl 1
    (Bs := [exTWall]) (by simpa using exTWall_valid) (by intro B hB; simp at hB; subst hB; exact wet_of (exTWall_wet _)) h2
  obtain ⟨op1, op2, w1, w2, fl, cn, fl', cn', w3, w4, -, -, w5, -⟩ := i6 0 exTWall rfl
  obtain ⟨g, o, fl0, cn0, bops, -, -, -, rfl, hf⟩ := h2
  obtain ⟨op', j1, j2, -⟩ := forall₂_getElem? h3 (i := 0) (a := exTWall) rfl
  obtain rfl : op' = op1 := Option.some.inj (j1.symm.trans w1)
  obtain rfl := Option.some.inj (j2.symm.trans w3)
  refine ⟨_, ops', op2, fl', rhs, h1, i1, w2, w4, fun k hk => ?_⟩
  have hj : 0 < (exCT.owned' exTWall.ids exTWall.ids.len).length := by
    have := owned'_getD exCT exTWall.ids (e := 0) rfl exTWall.ids.len (by show 0 < 1; omega)
    omega
  obtain ⟨y, y1, y2⟩ := w5 0 hj
  have h := y2 k hk
  obtain ⟨l, rfl⟩ := y1.2 rfl
  rw [Nat.mul_zero, Nat.zero_add] at h
  rw [h]
  show some ((0 : ℝ) + x) = some x
  rw [zero_add]

/-- C116 (violated, number of tracers): a `TracerState` has room for five tracers, but with five sediment classes and salinity there are six
(`/repo/src/tracer/tracer_types_ceed.h:25-28`, `/repo/src/operator_fluxes_ceed.c:44-46`): the Q-functions then write
`hci[5]`, past the end of this array (what follows it in the structure are the members `s` and `T`, so that compilers may let it pass, but the language
does not define it), and no evaluation on a process with an internal edge is defined. -/
theorem C116_many_tracers_violated (sv : TSolver) (P : FlowParams) (mem : Mem) (dt : ℝ) (c : CeedCfg) (hc : c.classes = 5)
    (hs : c.salinity = true) (hT : T.Valid nc n ne nv) (hi : 0 < T.numOwnedInternal) (u : Arr ℝ) :
    ∃ ops, createFluxT sv P c.tracers mem T [] = some ops ∧ fluxEvaluationT c.tracers nc dt u ops = none := by
  obtain ⟨ops, h1, h2, -⟩ := createFluxT_spec sv P mem hT (nt := c.tracers) (Bs := []) (by simp)
  refine ⟨ops, h1, ?_⟩
  obtain ⟨g, o, fl, cn, bops, -, -, -, rfl, hf⟩ := h2
  refine compositeAdd_none (op := interiorT sv P c.tracers T.numOwnedInternal g o fl cn) (j := 0) hi
    (interior_point_many sv P ?_ u _ fl cn dt 0) _ _ List.mem_cons_self
  unfold CeedCfg.tracers maxSedimentClasses
  rw [hc, hs]
  simp only [if_true]
  omega

example (u : Arr ℝ) : ∃ ops, createFluxT .roe exCP 6 (fun _ _ _ => none) exCT [] = some ops ∧ fluxEvaluationT 6 2 1 u ops = none :=
  C116_many_tracers_violated .roe exCP (fun _ _ _ => none) 1 ⟨5, true, false, .none, .semiImplicit, .roe, false⟩ rfl rfl exCT_valid
    (by show 0 < 1; omega) u

end RDy
