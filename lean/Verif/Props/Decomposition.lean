import Verif.Props.BackendsRhs

/-!
C73: the right-hand side, and the states computed from it, do not depend on how the mesh is divided among
processes.
-/

namespace RDy

open Finset

/-! ### Specification: the undivided problem -/

/-- The undivided problem: `N` cells with areas, bed elevations and slopes, external sources and roughness,
all by global number; interior edges; boundary edges (a `BEdge` whose cell is a global number). -/
structure GProblem where
  N : ℕ
  area : ℕ → ℝ
  zc : ℕ → ℝ
  dzdx : ℕ → ℝ
  dzdy : ℕ → ℝ
  src : ℕ → Flux
  mann : ℕ → ℝ
  edges : List GEdge
  bedges : List BEdge

/-- A process's part of the problem: the data of local cell `c` are those of global cell `gid p c`, and the
boundary edges of owned cells are the boundary edges of the problem whose cells the process owns, in any
order. Every cell is present on its owner. -/
structure Divides (Q : GProblem) {n : ℕ} (pm : Fin n → PMesh) (gid : Fin n → ℕ → ℕ)
    (owner : ℕ → Fin n) (src : Fin n → ℕ → Flux) (mann : Fin n → ℕ → ℝ) : Prop where
  lt : ∀ p, ∀ c < (pm p).numCells, gid p c < Q.N
  inj : ∀ p, ∀ c < (pm p).numCells, ∀ c' < (pm p).numCells, gid p c = gid p c' → c = c'
  cover : ∀ γ < Q.N, ∃ c < (pm (owner γ)).numCells, gid (owner γ) c = γ
  area : ∀ p, ∀ c < (pm p).numCells, (pm p).area c = Q.area (gid p c)
  zc : ∀ p, ∀ c < (pm p).numCells, (pm p).zc c = Q.zc (gid p c)
  dzdx : ∀ p, ∀ c < (pm p).numCells, (pm p).dzdx c = Q.dzdx (gid p c)
  dzdy : ∀ p, ∀ c < (pm p).numCells, (pm p).dzdy c = Q.dzdy (gid p c)
  src : ∀ p, ∀ c < (pm p).numCells, (pm p).owned c = true → src p ((pm p).l2o c) = Q.src (gid p c)
  mann : ∀ p, ∀ c < (pm p).numCells, (pm p).owned c = true → mann p ((pm p).l2o c) = Q.mann (gid p c)
  bedges : ∀ p, List.Perm
    ((((pm p).boundary.filter fun e => (pm p).owned e.cell)).map fun e => { e with cell := gid p e.cell })
    (Q.bedges.filter fun b => owner b.cell = p)

/-- the cells of the edges of the problem are cells of the problem -/
structure GProblem.Valid (Q : GProblem) : Prop where
  c1 : ∀ e ∈ Q.edges, e.c1 < Q.N
  c2 : ∀ e ∈ Q.edges, e.c2 < Q.N
  cell : ∀ e ∈ Q.bedges, e.cell < Q.N

/-- What the two cells of an edge lose and gain per unit length. -/
noncomputable def facePair (P : FlowParams) (hr : Bool) (zL zR : ℝ) (qL qR : Cons) (sn cn : ℝ) :
    Option (Flux × Flux) :=
  if hr then hrPairPetsc P zL zR qL qR sn cn
  else (usedFlux P.g P.tinyH (velocities P.tinyH P.hAnuga qL) (velocities P.tinyH P.hAnuga qR)
    sn cn).map fun F => (F, F)

/-- the pair of an interior edge of the problem -/
noncomputable def GProblem.pair (Q : GProblem) (P : FlowParams) (hr : Bool) (U : ℕ → Cons) (e : GEdge) :
    Option (Flux × Flux) :=
  facePair P hr (Q.zc e.c1) (Q.zc e.c2) (U e.c1) (U e.c2) e.sn e.cn

/-- component `k` of what an interior edge contributes to cell `γ` -/
noncomputable def GProblem.edgeTerm (Q : GProblem) (P : FlowParams) (hr : Bool) (U : ℕ → Cons) (γ : ℕ)
    (k : Flux → ℝ) (e : GEdge) : ℝ :=
  (if e.c1 = γ then k ((Q.pair P hr U e).getD (Flux.zero, Flux.zero)).1 * (-e.len / Q.area γ) else 0) +
  if e.c2 = γ then k ((Q.pair P hr U e).getD (Flux.zero, Flux.zero)).2 * (e.len / Q.area γ) else 0

/-- component `k` of what a boundary edge contributes to cell `γ` -/
noncomputable def GProblem.bndTerm (Q : GProblem) (P : FlowParams) (U : ℕ → Cons) (γ : ℕ)
    (k : Flux → ℝ) (e : BEdge) : ℝ :=
  if e.cell = γ then k (bndFlux P U e) * (-e.len / Q.area γ) else 0

/-- component `k` of the flux divergence of cell `γ`: a sum over the edges of the undivided mesh -/
noncomputable def GProblem.div (Q : GProblem) (P : FlowParams) (hr : Bool) (U : ℕ → Cons) (γ : ℕ)
    (k : Flux → ℝ) : ℝ :=
  (Q.edges.map (Q.edgeTerm P hr U γ k)).sum + (Q.bedges.map (Q.bndTerm P U γ k)).sum

/-- The right-hand side of cell `γ` in terms of the undivided problem alone. -/
noncomputable def GProblem.rhs (Q : GProblem) (P : FlowParams) (m : FrictionMethod) (hr : Bool) (dt : ℝ)
    (U : ℕ → Cons) (γ : ℕ) : Option Flux :=
  (friction P m dt (Q.mann γ) (U γ) (Q.div P hr U γ Flux.x) (Q.div P hr U γ Flux.y)
      (bedTerm P (!hr) (Q.dzdx γ) (Q.dzdy γ) (U γ).h).1
      (bedTerm P (!hr) (Q.dzdx γ) (Q.dzdy γ) (U γ).h).2).map fun t =>
    ⟨Q.div P hr U γ Flux.m + (Q.src γ).m,
     Q.div P hr U γ Flux.x +
      (-(bedTerm P (!hr) (Q.dzdx γ) (Q.dzdy γ) (U γ).h).1 - t.1 + (Q.src γ).x),
     Q.div P hr U γ Flux.y +
      (-(bedTerm P (!hr) (Q.dzdx γ) (Q.dzdy γ) (U γ).h).2 - t.2 + (Q.src γ).y)⟩

/-- all fluxes of the undivided problem are numbers -/
def GProblem.FluxesDefined (Q : GProblem) (P : FlowParams) (hr : Bool) (U : ℕ → Cons) : Prop :=
  (∀ e ∈ Q.edges, (Q.pair P hr U e).isSome) ∧
  ∀ e ∈ Q.bedges, (usedFlux P.g P.tinyH
    (boundaryStates P.g P.tinyH P.hAnuga e.bc (U e.cell) e.sn e.cn).1
    (boundaryStates P.g P.tinyH P.hAnuga e.bc (U e.cell) e.sn e.cn).2 e.sn e.cn).isSome

/-! ### Single edges -/

/-- one internal edge, with either discretisation -/
noncomputable def edgeStep (P : FlowParams) (hr : Bool) (pm : PMesh) (u : ℕ → Cons) :
    (ℕ → Flux) → IEdge → Option (ℕ → Flux) :=
  if hr then hrEdge P pm u else interiorEdge P pm u

theorem interior_fold (P : FlowParams) (hr : Bool) (pm : PMesh) (u : ℕ → Cons) (f : ℕ → Flux) :
    (if hr then applyInteriorHR P pm u f else applyInterior P pm u f) =
      pm.internal.foldlM (edgeStep P hr pm u) f := by
  cases hr <;> rfl

theorem edgeStep_none {P : FlowParams} {hr : Bool} {pm : PMesh} {u : ℕ → Cons} {f : ℕ → Flux} {e : IEdge}
    (h : e.right = none) : edgeStep P hr pm u f e = some f := by
  cases hr <;> simp [edgeStep, hrEdge, interiorEdge, h]

/-- the pair of a local edge -/
noncomputable def localPair (P : FlowParams) (hr : Bool) (pm : PMesh) (u : ℕ → Cons) (e : IEdge) (r : ℕ) :
    Option (Flux × Flux) :=
  facePair P hr (pm.zc e.left) (pm.zc r) (u e.left) (u r) e.sn e.cn

theorem edgeStep_isSome {P : FlowParams} {hr : Bool} {pm : PMesh} {u : ℕ → Cons} (f : ℕ → Flux)
    {e : IEdge} {r : ℕ} (h : e.right = some r) :
    (edgeStep P hr pm u f e).isSome = (localPair P hr pm u e r).isSome := by
  cases hr with
  | false => simp [edgeStep, interiorEdge, h, localPair, facePair]
  | true =>
    simp only [edgeStep, hrEdge, h, localPair, facePair, hrPairPetsc, if_true]
    by_cases hd : (u r).h < P.tinyH ∧ (u e.left).h < P.tinyH
    · rw [if_pos hd, if_pos hd]; rfl
    · rw [if_neg hd, if_neg hd, Option.isSome_map, Option.isSome_map]

/-- component `k` of what a local edge contributes to the local cell `c` -/
noncomputable def edgeCell (P : FlowParams) (hr : Bool) (pm : PMesh) (u : ℕ → Cons) (c : ℕ)
    (k : Flux → ℝ) (e : IEdge) : ℝ :=
  match e.right with
  | none => 0
  | some r =>
    (if e.left = c then
      k ((localPair P hr pm u e r).getD (Flux.zero, Flux.zero)).1 * (-e.len / pm.area c) else 0) +
    if r = c then
      k ((localPair P hr pm u e r).getD (Flux.zero, Flux.zero)).2 * (e.len / pm.area c) else 0

theorem edgeStep_cell {P : FlowParams} {hr : Bool} {pm : PMesh} {k : Flux → ℝ} (hk : LinF k)
    (hinj : OwnedInj pm) (hv : EdgesValid pm) (u : ℕ → Cons) {c : ℕ} (hc : c < pm.numCells)
    (ho : pm.owned c = true) (f f' : ℕ → Flux) (e : IEdge) (he : e ∈ pm.internal)
    (h : edgeStep P hr pm u f e = some f') :
    k (f' (pm.l2o c)) = k (f (pm.l2o c)) + edgeCell P hr pm u c k e := by
  cases hre : e.right with
  | none =>
    rw [edgeStep_none hre] at h
    simp only [Option.some.injEq] at h
    subst h
    simp [edgeCell, hre]
  | some r =>
    have hl := hv.left e he
    have hrr := hv.right e he r hre
    have hkz : k ⟨0, 0, 0⟩ = 0 := hk.zero
    unfold edgeCell
    rw [hre]
    simp only
    cases hr with
    | false =>
      simp only [edgeStep, Bool.false_eq_true, if_false, interiorEdge, hre, Option.map_eq_some_iff] at h
      obtain ⟨F, hF, rfl⟩ := h
      rw [addBoth_cell hinj hk _ hc ho hl hrr, hk.smul, hk.smul]
      simp only [localPair, facePair, Bool.false_eq_true, if_false, hF, Option.map_some, Option.getD_some]
      rw [add_assoc]
      congr 2
      · by_cases hx : e.left = c
        · rw [if_pos hx, if_pos hx, hx]
        · rw [if_neg hx, if_neg hx]
      · by_cases hx : r = c
        · rw [if_pos hx, if_pos hx, hx]
        · rw [if_neg hx, if_neg hx]
    | true =>
      simp only [edgeStep, if_true, hrEdge, hre] at h
      simp only [localPair, facePair, if_true, hrPairPetsc]
      by_cases hd : (u r).h < P.tinyH ∧ (u e.left).h < P.tinyH
      · rw [if_pos hd] at h
        simp only [Option.some.injEq] at h
        subst h
        simp [hd, hkz]
      · rw [if_neg hd] at h
        simp only [Option.map_eq_some_iff] at h
        obtain ⟨F, hF, rfl⟩ := h
        rw [addBoth_cell hinj hk _ hc ho hl hrr, addBoth_cell hinj hk _ hc ho hl hrr, hk.smul, hk.smul,
          hk.smul, hk.smul]
        simp only [if_neg hd, hF, Option.map_some, Option.getD_some, hk.add]
        by_cases hx : e.left = c <;> by_cases hy : r = c <;> simp only [hx, hy, if_true, if_false] <;> ring

/-! ### Edges seen from the other side -/

theorem hrCorrection_swap (P : FlowParams) (h hrec sn cn : ℝ) :
    hrCorrection P h hrec (-sn) (-cn) = (hrCorrection P h hrec sn cn).opp := by
  simp only [hrCorrection, Flux.opp]
  ext <;> simp only <;> ring

theorem opp_add (a b : Flux) : a.opp.add b.opp = (a.add b).opp := by
  simp only [Flux.opp, Flux.add]
  ext <;> simp only <;> ring

theorem facePair_swap (P : FlowParams) (hr : Bool) (zL zR : ℝ) (qL qR : Cons) (sn cn : ℝ) :
    facePair P hr zR zL qR qL (-sn) (-cn) =
      (facePair P hr zL zR qL qR sn cn).map fun F => (F.2.opp, F.1.opp) := by
  unfold facePair
  cases hr with
  | false =>
    simp only [Bool.false_eq_true, if_false]
    rw [C37_used_antisymmetric, Option.map_map, Option.map_map]
    rfl
  | true =>
    simp only [if_true]
    unfold hrPairPetsc
    by_cases h : qR.h < P.tinyH ∧ qL.h < P.tinyH
    · rw [if_pos h, if_pos (And.symm h)]
      simp [Flux.opp]
    · rw [if_neg h, if_neg (fun h2 => h (And.symm h2)), max_comm zR zL, hrFlux_swap, Option.map_map,
        Option.map_map]
      congr 1
      funext F
      simp only [Function.comp, hrCorrection_swap, opp_add]

/-- A linear component that changes sign with the flux. -/
theorem LinF.opp {k : Flux → ℝ} (hk : LinF k) (F : Flux) : k F.opp = -k F := by
  have : F.opp = F.smul (-1) := by
    simp only [Flux.opp, Flux.smul]
    ext <;> simp
  rw [this, hk.smul]
  ring

theorem getD_swap (o : Option (Flux × Flux)) :
    (o.map fun F => (F.2.opp, F.1.opp)).getD (Flux.zero, Flux.zero) =
      ((o.getD (Flux.zero, Flux.zero)).2.opp, (o.getD (Flux.zero, Flux.zero)).1.opp) := by
  cases o with
  | none => simp [Flux.opp, Flux.zero]
  | some F => rfl

theorem localPair_sees {Q : GProblem} {P : FlowParams} {hr : Bool} {n : ℕ} {pm : Fin n → PMesh}
    {gid : Fin n → ℕ → ℕ} {owner : ℕ → Fin n} {src : Fin n → ℕ → Flux} {mann : Fin n → ℕ → ℝ}
    (hD : Divides Q pm gid owner src mann) (U : ℕ → Cons) (p : Fin n) {ge : GEdge} {le : IEdge} {r : ℕ}
    (hl : le.left < (pm p).numCells) (hrr : r < (pm p).numCells) (hr' : le.right = some r)
    (hs : Sees (gid p) ge le) :
    (gid p le.left = ge.c1 ∧ gid p r = ge.c2 ∧
      localPair P hr (pm p) (fun c => U (gid p c)) le r = Q.pair P hr U ge) ∨
    (gid p le.left = ge.c2 ∧ gid p r = ge.c1 ∧
      localPair P hr (pm p) (fun c => U (gid p c)) le r =
        (Q.pair P hr U ge).map fun F => (F.2.opp, F.1.opp)) := by
  obtain ⟨r', hre, -, hcase⟩ := hs
  rw [hr'] at hre
  simp only [Option.some.injEq] at hre
  subst hre
  rcases hcase with ⟨h1, h2, h3, h4⟩ | ⟨h1, h2, h3, h4⟩
  · left
    refine ⟨h1, h2, ?_⟩
    simp only [localPair, GProblem.pair, hD.zc p _ hl, hD.zc p _ hrr, h1, h2, h3, h4]
  · right
    refine ⟨h1, h2, ?_⟩
    simp only [localPair, GProblem.pair, hD.zc p _ hl, hD.zc p _ hrr, h1, h2, h3, h4]
    rw [facePair_swap]

theorem edgeCell_sees {Q : GProblem} {P : FlowParams} {hr : Bool} {n : ℕ} {pm : Fin n → PMesh}
    {gid : Fin n → ℕ → ℕ} {owner : ℕ → Fin n} {src : Fin n → ℕ → Flux} {mann : Fin n → ℕ → ℝ}
    (hD : Divides Q pm gid owner src mann) (hv : ∀ p, EdgesValid (pm p)) (U : ℕ → Cons) (p : Fin n)
    {c : ℕ} (hc : c < (pm p).numCells) {k : Flux → ℝ} (hk : LinF k) {ge : GEdge} {le : IEdge}
    (hle : le ∈ (pm p).internal) (hs : Sees (gid p) ge le) :
    edgeCell P hr (pm p) (fun c => U (gid p c)) c k le = Q.edgeTerm P hr U (gid p c) k ge := by
  have hs' := hs
  obtain ⟨r, hre, hlen, -⟩ := hs'
  have hl := (hv p).left le hle
  have hrr := (hv p).right le hle r hre
  have iff1 : ∀ a, a < (pm p).numCells → (gid p a = gid p c ↔ a = c) := fun a ha =>
    ⟨fun h => hD.inj p a ha c hc h, fun h => by rw [h]⟩
  unfold edgeCell GProblem.edgeTerm
  rw [hre]
  simp only
  rw [hlen, hD.area p c hc]
  rcases localPair_sees (P := P) (hr := hr) hD U p hl hrr hre hs with ⟨h1, h2, h3⟩ | ⟨h1, h2, h3⟩
  · rw [h3, ← h1, ← h2]
    simp only [iff1 _ hl, iff1 _ hrr]
  · rw [h3, ← h1, ← h2, getD_swap]
    simp only [iff1 _ hl, iff1 _ hrr, hk.opp]
    rw [add_comm]
    congr 1
    · by_cases hx : r = c
      · rw [if_pos hx, if_pos hx]; ring
      · rw [if_neg hx, if_neg hx]
    · by_cases hx : le.left = c
      · rw [if_pos hx, if_pos hx]; ring
      · rw [if_neg hx, if_neg hx]

/-- A sum over the internal edges of a process is the sum over the edges of the undivided mesh, if each
local term is the term of the edge it represents and edges the process does not have contribute nothing. -/
theorem local_sum_eq {n : ℕ} {pm : Fin n → PMesh} {gid : Fin n → ℕ → ℕ} {owner : ℕ → Fin n}
    {G : List GEdge} {seen : Fin n → GEdge → Bool} (hp : Partitioned n pm gid owner G seen) (p : Fin n)
    (d : IEdge → ℝ) (D : GEdge → ℝ) (hnone : ∀ e, e.right = none → d e = 0)
    (hd : ∀ ge ∈ G, ∀ le ∈ (pm p).internal, Sees (gid p) ge le → d le = D ge)
    (hno : ∀ ge ∈ G, owner ge.c1 ≠ p → owner ge.c2 ≠ p → D ge = 0) :
    ((pm p).internal.map d).sum = (G.map D).sum := by
  obtain ⟨l, hperm, hall⟩ := hp.edges p
  have e1 : ((pm p).internal.map d).sum =
      (((pm p).internal.filter fun e => e.right.isSome).map d).sum := by
    generalize (pm p).internal = L
    induction L with
    | nil => rfl
    | cons a L ih =>
      rw [List.filter_cons, List.map_cons, List.sum_cons, ih]
      by_cases ha : a.right.isSome = true
      · rw [if_pos ha]; rfl
      · rw [if_neg ha, hnone a (by simpa using ha), zero_add]
  have e2 : (((pm p).internal.filter fun e => e.right.isSome).map d).sum = (l.map d).sum :=
    ((hperm.map d).sum_eq).symm
  have hmem : ∀ le ∈ l, le ∈ (pm p).internal := fun le hle =>
    List.mem_of_mem_filter (hperm.mem_iff.mp hle)
  have e3 : (l.map d).sum = ((G.filter (seen p)).map D).sum := by
    have hG : ∀ ge ∈ G.filter (seen p), ge ∈ G := fun ge h => List.mem_of_mem_filter h
    revert hmem hall
    clear e1 e2 hperm
    revert hG
    generalize G.filter (seen p) = G'
    intro hG hall
    induction hall with
    | nil => intro _; rfl
    | @cons ge le gs ls hs _ ih =>
      intro hmem
      rw [List.map_cons, List.sum_cons, List.map_cons, List.sum_cons,
        ih (fun ge h => hG ge (List.mem_cons_of_mem _ h))
          (fun le h => hmem le (List.mem_cons_of_mem _ h)),
        hd ge (hG ge (by simp)) le (hmem le (by simp)) hs]
  have e4 : ((G.filter (seen p)).map D).sum = (G.map D).sum := by
    have hs := hp.seen p
    clear e1 e2 e3 hperm hall hmem hd
    revert hs hno
    generalize G = G'
    intro hno hs
    induction G' with
    | nil => rfl
    | cons a L ih =>
      rw [List.filter_cons, List.map_cons, List.sum_cons,
        ← ih (fun ge h => hno ge (List.mem_cons_of_mem _ h)) (fun ge h => hs ge (List.mem_cons_of_mem _ h))]
      by_cases ha : seen p a = true
      · rw [if_pos ha]; rfl
      · rw [if_neg ha]
        have h2 : ¬ (owner a.c1 = p ∨ owner a.c2 = p) := fun h => ha (hs a (by simp) h)
        rw [not_or] at h2
        rw [hno a (by simp) h2.1 h2.2, zero_add]
  rw [e1, e2, e3, e4]

/-! ### The flux divergence of a cell -/

/-- component `k` of what a local boundary edge contributes to the local cell `c` -/
noncomputable def bndCell (P : FlowParams) (pm : PMesh) (u : ℕ → Cons) (c : ℕ) (k : Flux → ℝ)
    (e : BEdge) : ℝ :=
  if e.cell = c then k (bndFlux P u e) * (-e.len / pm.area c) else 0

theorem boundaryEdge_cell {P : FlowParams} {pm : PMesh} {k : Flux → ℝ} (hk : LinF k)
    (hinj : OwnedInj pm) (hv : EdgesValid pm) (u : ℕ → Cons) {c : ℕ} (hc : c < pm.numCells)
    (ho : pm.owned c = true) (f f' : ℕ → Flux) (e : BEdge) (he : e ∈ pm.boundary)
    (h : boundaryEdge P pm u f e = some f') :
    k (f' (pm.l2o c)) = k (f (pm.l2o c)) + bndCell P pm u c k e := by
  unfold boundaryEdge at h
  unfold bndCell
  by_cases hoe : pm.owned e.cell = true
  · rw [if_pos hoe] at h
    simp only [Option.map_eq_some_iff] at h
    obtain ⟨F, hF, rfl⟩ := h
    rw [addOwned_cell hinj _ hc ho (hv.cell e he)]
    have hE : bndFlux P u e = F := by
      unfold bndFlux
      rw [hF]
      rfl
    by_cases hx : e.cell = c
    · rw [if_pos hx, if_pos hx, hk.add, hk.smul, hE, hx]
    · rw [if_neg hx, if_neg hx, add_zero]
  · rw [if_neg hoe] at h
    simp only [Option.some.injEq] at h
    subst h
    have hx : e.cell ≠ c := fun hx => hoe (hx ▸ ho)
    rw [if_neg hx, add_zero]

theorem bnd_sum_eq {Q : GProblem} {P : FlowParams} {n : ℕ} {pm : Fin n → PMesh}
    {gid : Fin n → ℕ → ℕ} {owner : ℕ → Fin n} {src : Fin n → ℕ → Flux} {mann : Fin n → ℕ → ℝ}
    (hD : Divides Q pm gid owner src mann) (hv : ∀ p, EdgesValid (pm p)) (U : ℕ → Cons) (p : Fin n)
    {c : ℕ} (hc : c < (pm p).numCells) (ho : (pm p).owned c = true) (hown : owner (gid p c) = p)
    (k : Flux → ℝ) :
    ((pm p).boundary.map (bndCell P (pm p) (fun c => U (gid p c)) c k)).sum =
      (Q.bedges.map (Q.bndTerm P U (gid p c) k)).sum := by
  have e1 : ((pm p).boundary.map (bndCell P (pm p) (fun c => U (gid p c)) c k)).sum =
      (((pm p).boundary.filter fun e => (pm p).owned e.cell).map
        (bndCell P (pm p) (fun c => U (gid p c)) c k)).sum := by
    generalize (pm p).boundary = L
    induction L with
    | nil => rfl
    | cons a L ih =>
      rw [List.filter_cons, List.map_cons, List.sum_cons, ih]
      by_cases ha : (pm p).owned a.cell = true
      · rw [if_pos ha]; rfl
      · rw [if_neg ha]
        have hx : a.cell ≠ c := fun hx => ha (hx ▸ ho)
        rw [bndCell, if_neg hx, zero_add]
  have e2 : (((pm p).boundary.filter fun e => (pm p).owned e.cell).map
      (bndCell P (pm p) (fun c => U (gid p c)) c k)) =
      ((((pm p).boundary.filter fun e => (pm p).owned e.cell)).map
        fun e => ({ e with cell := gid p e.cell } : BEdge)).map (Q.bndTerm P U (gid p c) k) := by
    rw [List.map_map]
    apply List.map_congr_left
    intro e he
    have hmem := List.mem_of_mem_filter he
    have hlt := (hv p).cell e hmem
    have iff1 : gid p e.cell = gid p c ↔ e.cell = c :=
      ⟨fun h => hD.inj p _ hlt c hc h, fun h => by rw [h]⟩
    simp only [Function.comp, bndCell, GProblem.bndTerm, iff1, hD.area p c hc]
    rfl
  have e3 : ((Q.bedges.filter fun b => owner b.cell = p).map (Q.bndTerm P U (gid p c) k)).sum =
      (Q.bedges.map (Q.bndTerm P U (gid p c) k)).sum := by
    generalize Q.bedges = L
    induction L with
    | nil => rfl
    | cons a L ih =>
      rw [List.filter_cons, List.map_cons, List.sum_cons, ← ih]
      by_cases ha : owner a.cell = p
      · rw [if_pos (by simpa using ha)]; rfl
      · rw [if_neg (by simpa using ha)]
        have hx : a.cell ≠ gid p c := fun hx => ha (hx ▸ hown)
        rw [GProblem.bndTerm, if_neg hx, zero_add]
  rw [e1, e2, ((hD.bedges p).map _).sum_eq, e3]

theorem flux_cell {Q : GProblem} {P : FlowParams} {hr : Bool} {n : ℕ} {pm : Fin n → PMesh}
    {gid : Fin n → ℕ → ℕ} {owner : ℕ → Fin n} {seen : Fin n → GEdge → Bool} {src : Fin n → ℕ → Flux}
    {mann : Fin n → ℕ → ℝ} (hp : Partitioned n pm gid owner Q.edges seen)
    (hD : Divides Q pm gid owner src mann) (U : ℕ → Cons) (p : Fin n) {c : ℕ} (hc : c < (pm p).numCells)
    (ho : (pm p).owned c = true) {k : Flux → ℝ} (hk : LinF k) {f1 fd : ℕ → Flux}
    (h1 : (pm p).internal.foldlM (edgeStep P hr (pm p) fun c => U (gid p c)) (fun _ => Flux.zero) =
      some f1)
    (h2 : applyBoundary P (pm p) (fun c => U (gid p c)) f1 = some fd) :
    k (fd ((pm p).l2o c)) = Q.div P hr U (gid p c) k := by
  have hown := (hp.owned p c hc).mp ho
  have s1 := foldlM_sum (edgeStep P hr (pm p) fun c => U (gid p c))
    (fun f => k (f ((pm p).l2o c))) (edgeCell P hr (pm p) (fun c => U (gid p c)) c k) (pm p).internal _ _
    (fun f e f' he hs => edgeStep_cell hk (hp.inj p) (hp.valid p) _ hc ho f f' e he hs) h1
  have s2 := foldlM_sum (boundaryEdge P (pm p) fun c => U (gid p c))
    (fun f => k (f ((pm p).l2o c))) (bndCell P (pm p) (fun c => U (gid p c)) c k) (pm p).boundary _ _
    (fun f e f' he hs => boundaryEdge_cell hk (hp.inj p) (hp.valid p) _ hc ho f f' e he hs) h2
  rw [s2, s1, hk.zero, zero_add]
  unfold GProblem.div
  congr 1
  · apply local_sum_eq hp p
    · intro e he
      simp [edgeCell, he]
    · intro ge _ le hle hs
      exact edgeCell_sees hD hp.valid U p hc hk hle hs
    · intro ge _ n1 n2
      unfold GProblem.edgeTerm
      rw [if_neg (fun h : ge.c1 = gid p c => n1 (h ▸ hown)),
        if_neg (fun h : ge.c2 = gid p c => n2 (h ▸ hown)), add_zero]
  · exact bnd_sum_eq hD hp.valid U p hc ho hown k

/-! ### The source operator, cell by cell -/

theorem sourceFold_cell {P : FlowParams} {m : FrictionMethod} {sl : Bool} {pm : PMesh}
    (hinj : OwnedInj pm) {dt : ℝ} {src : ℕ → Flux} {mann : ℕ → ℝ} {fd : ℕ → Flux} (u : ℕ → Cons)
    {c : ℕ} (hc : c < pm.numCells) (ho : pm.owned c = true) :
    ∀ (l : List ℕ), l.Nodup → (∀ c' ∈ l, c' < pm.numCells) → ∀ f f' : ℕ → Flux,
      l.foldlM (sourceCell P m sl pm dt src mann fd u) f = some f' →
      (c ∉ l → f' (pm.l2o c) = f (pm.l2o c)) ∧
      (c ∈ l → (friction P m dt (mann (pm.l2o c)) (u c) (fd (pm.l2o c)).x (fd (pm.l2o c)).y
        (bedTerm P sl (pm.dzdx c) (pm.dzdy c) (u c).h).1
        (bedTerm P sl (pm.dzdx c) (pm.dzdy c) (u c).h).2).map (fun t => (f (pm.l2o c)).add
          ⟨(src (pm.l2o c)).m,
           -(bedTerm P sl (pm.dzdx c) (pm.dzdy c) (u c).h).1 - t.1 + (src (pm.l2o c)).x,
           -(bedTerm P sl (pm.dzdx c) (pm.dzdy c) (u c).h).2 - t.2 + (src (pm.l2o c)).y⟩) =
        some (f' (pm.l2o c)))
  | [], _, _, f, f', h => by
    simp only [List.foldlM_nil, pure, Option.some.injEq] at h
    subst h
    exact ⟨fun _ => rfl, fun h => absurd h (by simp)⟩
  | a :: l, hnd, hlt, f, f', h => by
    rw [List.nodup_cons] at hnd
    rw [List.foldlM_cons] at h
    cases hs : sourceCell P m sl pm dt src mann fd u f a with
    | none => rw [hs] at h; simp at h
    | some f1 =>
      rw [hs] at h
      have h' : l.foldlM (sourceCell P m sl pm dt src mann fd u) f1 = some f' := h
      obtain ⟨i1, i2⟩ := sourceFold_cell hinj u hc ho l hnd.2
        (fun c' hc' => hlt c' (List.mem_cons_of_mem _ hc')) f1 f' h'
      have hkeep : a ≠ c → f1 (pm.l2o c) = f (pm.l2o c) := by
        intro hne
        unfold sourceCell at hs
        by_cases hoa : pm.owned a = true
        · rw [if_pos hoa] at hs
          simp only [Option.map_eq_some_iff] at hs
          obtain ⟨t, -, rfl⟩ := hs
          have : pm.l2o c ≠ pm.l2o a := fun h =>
            hne (hinj a (hlt a (by simp)) c hc hoa ho h.symm)
          simp [addAt, this]
        · rw [if_neg hoa] at hs
          simp only [Option.some.injEq] at hs
          rw [hs]
      constructor
      · intro hnot
        rw [List.mem_cons, not_or] at hnot
        rw [i1 hnot.2, hkeep (Ne.symm hnot.1)]
      · intro hin
        by_cases hac : a = c
        · subst hac
          rw [i1 hnd.1]
          unfold sourceCell at hs
          rw [if_pos ho] at hs
          simp only [Option.map_eq_some_iff] at hs
          obtain ⟨t, ht, rfl⟩ := hs
          rw [ht]
          simp [addAt]
        · have hin' : c ∈ l := by
            rcases List.mem_cons.mp hin with h | h
            · exact absurd h.symm hac
            · exact h
          rw [← i2 hin', hkeep hac]

/-! ### C73 -/

/-- C73. Whatever the division among processes, the order of edges on each process and the side from which
each process sees an edge, the right-hand side computed for an owned cell is the one given by the
undivided problem. -/
theorem C73_cell {Q : GProblem} {P : FlowParams} {m : FrictionMethod} {hr : Bool} {n : ℕ}
    {pm : Fin n → PMesh} {gid : Fin n → ℕ → ℕ} {owner : ℕ → Fin n} {seen : Fin n → GEdge → Bool}
    {src : Fin n → ℕ → Flux} {mann : Fin n → ℕ → ℝ} {dt : ℝ}
    (hp : Partitioned n pm gid owner Q.edges seen) (hD : Divides Q pm gid owner src mann)
    (U : ℕ → Cons) (p : Fin n) {f : ℕ → Flux}
    (h : rhs P m hr (pm p) dt (src p) (mann p) (fun c => U (gid p c)) = some f) {c : ℕ}
    (hc : c < (pm p).numCells) (ho : (pm p).owned c = true) :
    Q.rhs P m hr dt U (gid p c) = some (f ((pm p).l2o c)) := by
  unfold rhs at h
  rw [interior_fold, Option.bind_eq_some_iff] at h
  obtain ⟨f1, h1, h⟩ := h
  rw [Option.bind_eq_some_iff] at h
  obtain ⟨fd, h2, h3⟩ := h
  have key : ∀ k, LinF k → k (fd ((pm p).l2o c)) = Q.div P hr U (gid p c) k := fun k hk =>
    flux_cell hp hD U p hc ho hk h1 h2
  have hs := (sourceFold_cell (hp.inj p) _ hc ho (List.range (pm p).numCells) List.nodup_range
    (fun c' hc' => List.mem_range.mp hc') fd f h3).2 (List.mem_range.mpr hc)
  rw [hD.src p c hc ho, hD.mann p c hc ho, hD.dzdx p c hc, hD.dzdy p c hc, key _ linF_x, key _ linF_y]
    at hs
  rw [← hs]
  unfold GProblem.rhs
  congr 1
  funext t
  rw [← key _ linF_m, ← key _ linF_x, ← key _ linF_y]
  rfl

/-- C73. Two divisions of the same problem, with any numbers of processes, give each cell the same
right-hand side. -/
theorem C73_independent {Q : GProblem} {P : FlowParams} {m : FrictionMethod} {hr : Bool} {n n' : ℕ}
    {pm : Fin n → PMesh} {gid : Fin n → ℕ → ℕ} {owner : ℕ → Fin n} {seen : Fin n → GEdge → Bool}
    {src : Fin n → ℕ → Flux} {mann : Fin n → ℕ → ℝ}
    {pm' : Fin n' → PMesh} {gid' : Fin n' → ℕ → ℕ} {owner' : ℕ → Fin n'} {seen' : Fin n' → GEdge → Bool}
    {src' : Fin n' → ℕ → Flux} {mann' : Fin n' → ℕ → ℝ} {dt : ℝ}
    (hp : Partitioned n pm gid owner Q.edges seen) (hD : Divides Q pm gid owner src mann)
    (hp' : Partitioned n' pm' gid' owner' Q.edges seen') (hD' : Divides Q pm' gid' owner' src' mann')
    (U : ℕ → Cons) (p : Fin n) (p' : Fin n') {f f' : ℕ → Flux}
    (h : rhs P m hr (pm p) dt (src p) (mann p) (fun c => U (gid p c)) = some f)
    (h' : rhs P m hr (pm' p') dt (src' p') (mann' p') (fun c => U (gid' p' c)) = some f')
    {c c' : ℕ} (hc : c < (pm p).numCells) (ho : (pm p).owned c = true) (hc' : c' < (pm' p').numCells)
    (ho' : (pm' p').owned c' = true) (hg : gid p c = gid' p' c') :
    f ((pm p).l2o c) = f' ((pm' p').l2o c') := by
  have e1 := C73_cell hp hD U p h hc ho
  have e2 := C73_cell hp' hD' U p' h' hc' ho'
  rw [hg, e2] at e1
  exact (Option.some.inj e1).symm

theorem foldlM_isSome_iff {α σ : Type} (step : σ → α → Option σ) (D : α → Prop) :
    ∀ (l : List α) (f : σ), (∀ f, ∀ e ∈ l, ((step f e).isSome ↔ D e)) →
      ((l.foldlM step f).isSome ↔ ∀ e ∈ l, D e)
  | [], _, _ => by simp
  | a :: l, f, H => by
    rw [List.foldlM_cons]
    cases hs : step f a with
    | none =>
      have h1 := H f a (by simp)
      rw [hs] at h1
      have h2 : ¬ D a := fun h => by simpa using h1.mpr h
      constructor
      · intro h; simp at h
      · intro h; exact absurd (h a (by simp)) h2
    | some f1 =>
      have h1 := H f a (by simp)
      rw [hs] at h1
      have h2 : D a := h1.mp rfl
      have := foldlM_isSome_iff step D l f1 fun f e he => H f e (List.mem_cons_of_mem _ he)
      refine Iff.trans this ?_
      simp [h2]

theorem forall2_right {α β : Type} {R : α → β → Prop} {l1 : List α} {l2 : List β}
    (h : List.Forall₂ R l1 l2) : ∀ b ∈ l2, ∃ a ∈ l1, R a b := by
  induction h with
  | nil => intro b hb; simp at hb
  | @cons a b l1 l2 hab _ ih =>
    intro b' hb'
    rcases List.mem_cons.mp hb' with rfl | hb'
    · exact ⟨a, by simp, hab⟩
    · obtain ⟨a', ha', hr⟩ := ih b' hb'
      exact ⟨a', by simp [ha'], hr⟩

theorem forall2_left {α β : Type} {R : α → β → Prop} {l1 : List α} {l2 : List β}
    (h : List.Forall₂ R l1 l2) : ∀ a ∈ l1, ∃ b ∈ l2, R a b := by
  induction h with
  | nil => intro b hb; simp at hb
  | @cons a b l1 l2 hab _ ih =>
    intro b' hb'
    rcases List.mem_cons.mp hb' with rfl | hb'
    · exact ⟨b, by simp, hab⟩
    · obtain ⟨a', ha', hr⟩ := ih b' hb'
      exact ⟨a', by simp [ha'], hr⟩

/-- the flux of a boundary edge is a number -/
def bndDefined (P : FlowParams) (u : ℕ → Cons) (e : BEdge) : Prop :=
  (usedFlux P.g P.tinyH (boundaryStates P.g P.tinyH P.hAnuga e.bc (u e.cell) e.sn e.cn).1
    (boundaryStates P.g P.tinyH P.hAnuga e.bc (u e.cell) e.sn e.cn).2 e.sn e.cn).isSome

theorem interior_isSome_iff (P : FlowParams) (hr : Bool) (pm : PMesh) (u : ℕ → Cons) (f : ℕ → Flux) :
    (pm.internal.foldlM (edgeStep P hr pm u) f).isSome ↔
      ∀ e ∈ pm.internal, ∀ r, e.right = some r → (localPair P hr pm u e r).isSome := by
  apply foldlM_isSome_iff
  intro f e _
  cases h : e.right with
  | none => simp [edgeStep_none h]
  | some r => simp [edgeStep_isSome f h]

theorem boundary_isSome_iff (P : FlowParams) (pm : PMesh) (u : ℕ → Cons) (f : ℕ → Flux) :
    (applyBoundary P pm u f).isSome ↔
      ∀ e ∈ pm.boundary, pm.owned e.cell = true → bndDefined P u e := by
  apply foldlM_isSome_iff
  intro f e _
  unfold boundaryEdge bndDefined
  by_cases h : pm.owned e.cell = true
  · rw [if_pos h, Option.isSome_map]
    simp [h]
  · rw [if_neg h]
    simp [h]

theorem source_isSome_iff (P : FlowParams) (m : FrictionMethod) (sl : Bool) (pm : PMesh) (dt : ℝ)
    (src : ℕ → Flux) (mann : ℕ → ℝ) (fd : ℕ → Flux) (u : ℕ → Cons) (f : ℕ → Flux) :
    (applySource P m sl pm dt src mann fd u f).isSome ↔
      ∀ c < pm.numCells, pm.owned c = true →
        (friction P m dt (mann (pm.l2o c)) (u c) (fd (pm.l2o c)).x (fd (pm.l2o c)).y
          (bedTerm P sl (pm.dzdx c) (pm.dzdy c) (u c).h).1
          (bedTerm P sl (pm.dzdx c) (pm.dzdy c) (u c).h).2).isSome := by
  have := foldlM_isSome_iff (sourceCell P m sl pm dt src mann fd u)
    (fun c => pm.owned c = true →
      (friction P m dt (mann (pm.l2o c)) (u c) (fd (pm.l2o c)).x (fd (pm.l2o c)).y
        (bedTerm P sl (pm.dzdx c) (pm.dzdy c) (u c).h).1
        (bedTerm P sl (pm.dzdx c) (pm.dzdy c) (u c).h).2).isSome) (List.range pm.numCells) f ?_
  · unfold applySource
    rw [this]
    simp only [List.mem_range]
  · intro f c _
    unfold sourceCell
    by_cases h : pm.owned c = true
    · rw [if_pos h, Option.isSome_map]
      simp [h]
    · rw [if_neg h]
      simp [h]

theorem fluxes_defined {Q : GProblem} {P : FlowParams} {hr : Bool} {n : ℕ} {pm : Fin n → PMesh}
    {gid : Fin n → ℕ → ℕ} {owner : ℕ → Fin n} {seen : Fin n → GEdge → Bool} {src : Fin n → ℕ → Flux}
    {mann : Fin n → ℕ → ℝ} (hp : Partitioned n pm gid owner Q.edges seen)
    (hD : Divides Q pm gid owner src mann) (U : ℕ → Cons) :
    Q.FluxesDefined P hr U ↔ ∀ p,
      (∀ e ∈ (pm p).internal, ∀ r, e.right = some r →
        (localPair P hr (pm p) (fun c => U (gid p c)) e r).isSome) ∧
      ∀ e ∈ (pm p).boundary, (pm p).owned e.cell = true → bndDefined P (fun c => U (gid p c)) e := by
  have hpair : ∀ (p : Fin n) (ge : GEdge) (le : IEdge) (r : ℕ), le ∈ (pm p).internal →
      le.right = some r → Sees (gid p) ge le →
      (localPair P hr (pm p) (fun c => U (gid p c)) le r).isSome = (Q.pair P hr U ge).isSome := by
    intro p ge le r hle hre hs
    rcases localPair_sees (P := P) (hr := hr) hD U p ((hp.valid p).left le hle)
      ((hp.valid p).right le hle r hre) hre hs with ⟨-, -, h3⟩ | ⟨-, -, h3⟩
    · rw [h3]
    · rw [h3, Option.isSome_map]
  constructor
  · rintro ⟨hI, hB⟩ p
    obtain ⟨l, hperm, hall⟩ := hp.edges p
    constructor
    · intro e he r hre
      have hel : e ∈ l := hperm.mem_iff.mpr (List.mem_filter.mpr ⟨he, by simp [hre]⟩)
      obtain ⟨ge, hge, hs⟩ := forall2_right hall e hel
      rw [hpair p ge e r he hre hs]
      exact hI ge (List.mem_of_mem_filter hge)
    · intro e he ho
      have hmem : ({ e with cell := gid p e.cell } : BEdge) ∈
          (((pm p).boundary.filter fun e => (pm p).owned e.cell)).map
            fun e => ({ e with cell := gid p e.cell } : BEdge) :=
        List.mem_map.mpr ⟨e, List.mem_filter.mpr ⟨he, ho⟩, rfl⟩
      have := hB _ (List.mem_of_mem_filter ((hD.bedges p).mem_iff.mp hmem))
      exact this
  · intro H
    constructor
    · intro ge hge
      have hseen := hp.seen (owner ge.c1) ge hge (Or.inl rfl)
      obtain ⟨l, hperm, hall⟩ := hp.edges (owner ge.c1)
      obtain ⟨le, hle, hs⟩ := forall2_left hall ge (List.mem_filter.mpr ⟨hge, hseen⟩)
      have hle' := List.mem_of_mem_filter (hperm.mem_iff.mp hle)
      obtain ⟨r, hre, -⟩ := id hs
      rw [← hpair (owner ge.c1) ge le r hle' hre hs]
      exact (H (owner ge.c1)).1 le hle' r hre
    · intro b hb
      have key : ∀ p, b ∈ (Q.bedges.filter fun b' => owner b'.cell = p) → bndDefined P U b := by
        intro p hmem
        obtain ⟨e, he, rfl⟩ := List.mem_map.mp ((hD.bedges p).mem_iff.mpr hmem)
        obtain ⟨he1, he2⟩ := List.mem_filter.mp he
        exact (H p).2 e he1 he2
      exact key (owner b.cell) (List.mem_filter.mpr ⟨hb, by simp⟩)

/-- C73. Whether the right-hand side is made of numbers does not depend on the division either: it is
defined on all processes if and only if it is defined for the undivided problem. -/
theorem C73_defined {Q : GProblem} {P : FlowParams} {m : FrictionMethod} {hr : Bool} {n : ℕ}
    {pm : Fin n → PMesh} {gid : Fin n → ℕ → ℕ} {owner : ℕ → Fin n} {seen : Fin n → GEdge → Bool}
    {src : Fin n → ℕ → Flux} {mann : Fin n → ℕ → ℝ} {dt : ℝ}
    (hp : Partitioned n pm gid owner Q.edges seen) (hD : Divides Q pm gid owner src mann)
    (U : ℕ → Cons) :
    (∀ p, (rhs P m hr (pm p) dt (src p) (mann p) (fun c => U (gid p c))).isSome) ↔
      Q.FluxesDefined P hr U ∧ ∀ γ < Q.N, (Q.rhs P m hr dt U γ).isSome := by
  rw [fluxes_defined hp hD U]
  constructor
  · intro H
    constructor
    · intro p
      obtain ⟨f, hf⟩ := Option.isSome_iff_exists.mp (H p)
      unfold rhs at hf
      rw [interior_fold, Option.bind_eq_some_iff] at hf
      obtain ⟨f1, h1, hf⟩ := hf
      rw [Option.bind_eq_some_iff] at hf
      obtain ⟨fd, h2, -⟩ := hf
      exact ⟨(interior_isSome_iff P hr (pm p) _ _).mp (by rw [h1]; rfl),
        (boundary_isSome_iff P (pm p) _ f1).mp (by rw [h2]; rfl)⟩
    · intro γ hγ
      obtain ⟨c, hc, hg⟩ := hD.cover γ hγ
      have ho : (pm (owner γ)).owned c = true := (hp.owned _ c hc).mpr (by rw [hg])
      obtain ⟨f, hf⟩ := Option.isSome_iff_exists.mp (H (owner γ))
      have := C73_cell hp hD U (owner γ) hf hc ho
      rw [hg] at this
      rw [this]; rfl
  · rintro ⟨H, HR⟩ p
    obtain ⟨hI, hB⟩ := H p
    obtain ⟨f1, h1⟩ := Option.isSome_iff_exists.mp
      ((interior_isSome_iff P hr (pm p) (fun c => U (gid p c)) (fun _ => Flux.zero)).mpr hI)
    obtain ⟨fd, h2⟩ := Option.isSome_iff_exists.mp
      ((boundary_isSome_iff P (pm p) (fun c => U (gid p c)) f1).mpr hB)
    unfold rhs
    rw [interior_fold, h1, Option.bind_some, h2, Option.bind_some, source_isSome_iff]
    intro c hc ho
    have hs := HR (gid p c) (hD.lt p c hc)
    unfold GProblem.rhs at hs
    rw [Option.isSome_map, ← flux_cell hp hD U p hc ho linF_x h1 h2,
      ← flux_cell hp hD U p hc ho linF_y h1 h2, ← hD.mann p c hc ho, ← hD.dzdx p c hc,
      ← hD.dzdy p c hc] at hs
    exact hs

/-- One explicit Euler step of the undivided problem. -/
def GProblem.Step (Q : GProblem) (P : FlowParams) (m : FrictionMethod) (hr : Bool) (dt : ℝ)
    (U U' : ℕ → Cons) : Prop :=
  Q.FluxesDefined P hr U ∧ ∀ γ < Q.N, ∃ F, Q.rhs P m hr dt U γ = some F ∧
    (U' γ).h = (U γ).h + dt * F.m ∧ (U' γ).hu = (U γ).hu + dt * F.x ∧ (U' γ).hv = (U γ).hv + dt * F.y

theorem euler_iff {Q : GProblem} {P : FlowParams} {m : FrictionMethod} {hr : Bool} {n : ℕ}
    {pm : Fin n → PMesh} {gid : Fin n → ℕ → ℕ} {owner : ℕ → Fin n} {seen : Fin n → GEdge → Bool}
    {src : Fin n → ℕ → Flux} {mann : Fin n → ℕ → ℝ} {dt : ℝ}
    (hp : Partitioned n pm gid owner Q.edges seen) (hD : Divides Q pm gid owner src mann)
    (U U' : ℕ → Cons) :
    EulerStep P m hr pm gid dt src mann U U' ↔ Q.Step P m hr dt U U' := by
  constructor
  · intro h
    have hdef := (C73_defined (P := P) (m := m) (hr := hr) (dt := dt) hp hD U).mp fun p => by
      obtain ⟨f, hf, -⟩ := h p
      rw [hf]; rfl
    refine ⟨hdef.1, ?_⟩
    intro γ hγ
    obtain ⟨c, hc, hg⟩ := hD.cover γ hγ
    have ho : (pm (owner γ)).owned c = true := (hp.owned _ c hc).mpr (by rw [hg])
    obtain ⟨f, hf, hU⟩ := h (owner γ)
    have := C73_cell hp hD U (owner γ) hf hc ho
    rw [hg] at this
    have hx := hU c hc ho
    rw [hg] at hx
    exact ⟨_, this, hx⟩
  · rintro ⟨h1, h2⟩ p
    obtain ⟨f, hf⟩ := Option.isSome_iff_exists.mp
      ((C73_defined (P := P) (m := m) (hr := hr) (dt := dt) hp hD U).mpr ⟨h1, fun γ hγ => by
        obtain ⟨F, hF, -⟩ := h2 γ hγ
        rw [hF]; rfl⟩ p)
    refine ⟨f, hf, ?_⟩
    intro c hc ho
    obtain ⟨F, hF, hU⟩ := h2 (gid p c) (hD.lt p c hc)
    rw [C73_cell hp hD U p hf hc ho] at hF
    simp only [Option.some.injEq] at hF
    rw [hF]
    exact hU

/-- C73. A sequence of states is a run of the explicit Euler method on one division of the mesh among
processes if and only if it is one on another: the computed states do not depend on the number of processes
or on the division. Sources, roughness and Dirichlet values may change from step to step. -/
theorem C73_run {Q : ℕ → GProblem} {P : FlowParams} {m : FrictionMethod} {hr : Bool} {n n' : ℕ}
    {pm : ℕ → Fin n → PMesh} {gid : Fin n → ℕ → ℕ} {owner : ℕ → Fin n} {seen : Fin n → GEdge → Bool}
    {src : ℕ → Fin n → ℕ → Flux} {mann : ℕ → Fin n → ℕ → ℝ}
    {pm' : ℕ → Fin n' → PMesh} {gid' : Fin n' → ℕ → ℕ} {owner' : ℕ → Fin n'}
    {seen' : Fin n' → GEdge → Bool} {src' : ℕ → Fin n' → ℕ → Flux} {mann' : ℕ → Fin n' → ℕ → ℝ}
    (hp : ∀ i, Partitioned n (pm i) gid owner (Q i).edges seen)
    (hD : ∀ i, Divides (Q i) (pm i) gid owner (src i) (mann i))
    (hp' : ∀ i, Partitioned n' (pm' i) gid' owner' (Q i).edges seen')
    (hD' : ∀ i, Divides (Q i) (pm' i) gid' owner' (src' i) (mann' i))
    (dt : ℕ → ℝ) (U : ℕ → ℕ → Cons) (K : ℕ) :
    (∀ i < K, EulerStep P m hr (pm i) gid (dt i) (src i) (mann i) (U i) (U (i + 1))) ↔
      ∀ i < K, EulerStep P m hr (pm' i) gid' (dt i) (src' i) (mann' i) (U i) (U (i + 1)) := by
  apply forall_congr'
  intro i
  rw [euler_iff (hp i) (hD i), euler_iff (hp' i) (hD' i)]

/-! ### Example: the two cells of `exMesh` on two processes and on one -/

/-- the undivided problem of `exMesh`, with rain on cell 0 and different roughness -/
noncomputable def exProblem : GProblem where
  N := 2
  area _ := 1 / 2
  zc _ := 0
  dzdx _ := 0
  dzdy _ := 0
  src γ := ⟨if γ = 0 then 1e-3 else 0, 0, 0⟩
  mann γ := if γ = 0 then 0.03 else 0.05
  edges := [⟨0, 1, 1, 0, 1⟩]
  bedges := [⟨0, 1, 0, -1, .reflecting⟩, ⟨1, 1, 0, 1, .reflecting⟩]

/-- the same problem on one process, with the edges in another order and seen from the other side -/
noncomputable def exWhole : PMesh where
  numCells := 2
  area _ := 1 / 2
  owned _ := true
  l2o c := c
  internal := [⟨1, some 0, 1, 0, -1⟩]
  boundary := [⟨1, 1, 0, 1, .reflecting⟩, ⟨0, 1, 0, -1, .reflecting⟩]
  dzdx _ := 0
  dzdy _ := 0
  zc _ := 0

theorem exDivides2 : Divides exProblem exMesh exGid (fun c => if c = 0 then 0 else 1)
    (fun p _ => exProblem.src p) (fun p _ => exProblem.mann p) where
  lt p c hc := by
    simp only [exMesh, exProblem] at *
    unfold exGid
    split <;> omega
  inj p c hc c' hc' h := by
    simp only [exMesh] at hc hc'
    unfold exGid at h
    split at h <;> omega
  cover γ hγ := by
    simp only [exProblem] at hγ
    refine ⟨0, by norm_num [exMesh], ?_⟩
    interval_cases γ <;> simp [exGid]
  area _ _ _ := rfl
  zc _ _ _ := rfl
  dzdx _ _ _ := rfl
  dzdy _ _ _ := rfl
  src p c _ ho := by
    simp only [exMesh, beq_iff_eq] at ho
    subst ho
    fin_cases p <;> simp [exGid]
  mann p c _ ho := by
    simp only [exMesh, beq_iff_eq] at ho
    subst ho
    fin_cases p <;> simp [exGid]
  bedges p := by
    fin_cases p <;> simp [exMesh, exProblem, exGid]

theorem exDivides1 : Divides exProblem (fun _ : Fin 1 => exWhole) (fun _ c => c) (fun _ => 0)
    (fun _ c => exProblem.src c) (fun _ c => exProblem.mann c) where
  lt p c hc := hc
  inj p c hc c' hc' h := h
  cover γ hγ := ⟨γ, hγ, rfl⟩
  area _ _ _ := rfl
  zc _ _ _ := rfl
  dzdx _ _ _ := rfl
  dzdy _ _ _ := rfl
  src p c _ ho := rfl
  mann p c _ ho := rfl
  bedges p := by
    have hp : p = 0 := Subsingleton.elim _ _
    subst hp
    simp only [exWhole, exProblem, List.filter_cons, List.filter_nil, if_true, decide_true, List.map_cons,
      List.map_nil]
    exact List.Perm.swap _ _ _

theorem exWhole_valid : EdgesValid exWhole := by
  refine ⟨?_, ?_, ?_, ?_⟩
  · intro e he
    simp only [exWhole, List.mem_singleton] at he
    subst he; simp [exWhole]
  · intro e he r hr
    simp only [exWhole, List.mem_singleton] at he
    subst he
    simp only [Option.some.injEq] at hr
    subst hr; simp [exWhole]
  · intro e he
    simp only [exWhole, List.mem_cons, List.not_mem_nil, or_false] at he
    rcases he with rfl | rfl <;> simp [exWhole]
  · intro c _; simp [exWhole]

theorem exPartitioned1 : Partitioned 1 (fun _ => exWhole) (fun _ c => c) (fun _ => 0) exProblem.edges
    (fun _ _ => true) where
  valid _ := exWhole_valid
  inj _ := fun _ _ _ _ _ _ h => h
  owned p c _ := by simp [exWhole, Subsingleton.elim p 0]
  edges p := by
    refine ⟨exWhole.internal, by simp [exWhole], ?_⟩
    simp only [exWhole, exProblem, List.filter_cons, List.filter_nil, if_true]
    refine List.Forall₂.cons ?_ List.Forall₂.nil
    exact ⟨0, rfl, rfl, Or.inr ⟨rfl, rfl, by norm_num, rfl⟩⟩
  seen _ _ _ _ := rfl

/-- A step on one process exists from every state with non-negative depths, and the same states are a step
on two processes. -/
example (m : FrictionMethod) (hr : Bool) (U : ℕ → Cons) (hU : ∀ c, 0 ≤ (U c).h) :
    ∃ U', EulerStep exParams m hr (fun _ : Fin 1 => exWhole) (fun _ c => c) 0.5
        (fun _ c => exProblem.src c) (fun _ c => exProblem.mann c) U U' ∧
      EulerStep exParams m hr exMesh exGid 0.5 (fun p _ => exProblem.src p) (fun p _ => exProblem.mann p)
        U U' := by
  obtain ⟨f, hf⟩ := Option.isSome_iff_exists.mp (C39_rhs_defined (P := exParams) m hr exWhole
    (dt := 0.5) (fun c => exProblem.src c) (fun c => exProblem.mann c) (u := U) (by norm_num [exParams])
    (by norm_num [exParams]) (by norm_num [exParams]) (by norm_num) hU (by
      intro e he qb hq
      simp only [exWhole, List.mem_cons, List.not_mem_nil, or_false] at he
      rcases he with rfl | rfl <;> simp at hq))
  have h1 : EulerStep exParams m hr (fun _ : Fin 1 => exWhole) (fun _ c => c) 0.5
      (fun _ c => exProblem.src c) (fun _ c => exProblem.mann c) U
      (fun c => ⟨(U c).h + 0.5 * (f c).m, (U c).hu + 0.5 * (f c).x, (U c).hv + 0.5 * (f c).y⟩) :=
    fun _ => ⟨f, hf, fun c _ _ => ⟨rfl, rfl, rfl⟩⟩
  refine ⟨_, h1, ?_⟩
  exact (C73_run (Q := fun _ => exProblem) (pm := fun _ _ => exWhole) (pm' := fun _ => exMesh)
    (fun _ => exPartitioned1) (fun _ => exDivides1) (fun _ => exPartitioned) (fun _ => exDivides2)
    (fun _ => 0.5) (fun i => if i = 0 then U else
      fun c => ⟨(U c).h + 0.5 * (f c).m, (U c).hu + 0.5 * (f c).x, (U c).hv + 0.5 * (f c).y⟩) 1).mp
    (fun i hi => by
      have : i = 0 := by omega
      subst this
      exact h1) 0 (by norm_num)

end RDy
