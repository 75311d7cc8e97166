import Verif.Props.Decomposition
import Verif.Props.Mesh

/-!
C73 for the CEED backend: each edge is computed by the one process that owns it, which adds to its local
vector; `DMLocalToGlobal` then adds the entries of ghost cells to their owners.
-/

namespace RDy

open Finset

/-! ### Specification -/

/-- What the two cells of an edge lose and gain per unit length with CEED. -/
noncomputable def facePairCeed (P : FlowParams) (hr : Bool) (zL zR : ℝ) (qL qR : Cons) (sn cn : ℝ) :
    Option (Flux × Flux) :=
  if hr then hrPairCeed P zL zR qL qR sn cn
  else (edgeFluxCeed P.g P.tinyH P.hAnuga qL qR sn cn 0).map fun F => (F.1, F.1)

/-- the flux out of a boundary edge with CEED -/
noncomputable def bndFluxCeed (P : FlowParams) (u : ℕ → Cons) (e : BEdge) : Flux :=
  ((boundaryFluxCeed P e.bc (u e.cell) e.sn e.cn).map Prod.fst).getD Flux.zero

/-- component `k` of the flux divergence of cell `γ` of the undivided problem, with CEED's fluxes -/
noncomputable def GProblem.divCeed (Q : GProblem) (P : FlowParams) (hr : Bool) (U : ℕ → Cons) (γ : ℕ)
    (k : Flux → ℝ) : ℝ :=
  (Q.edges.map fun e =>
    (if e.c1 = γ then k ((facePairCeed P hr (Q.zc e.c1) (Q.zc e.c2) (U e.c1) (U e.c2) e.sn e.cn).getD
      (Flux.zero, Flux.zero)).1 * (-e.len / Q.area γ) else 0) +
    if e.c2 = γ then k ((facePairCeed P hr (Q.zc e.c1) (Q.zc e.c2) (U e.c1) (U e.c2) e.sn e.cn).getD
      (Flux.zero, Flux.zero)).2 * (e.len / Q.area γ) else 0).sum +
  (Q.bedges.map fun e =>
    if e.cell = γ then k (bndFluxCeed P U e) * (-e.len / Q.area γ) else 0).sum

/-- A division of the problem as CEED sees it: every interior edge and every boundary edge is owned by one
process (`eowner`, `bowner`), whose lists `internal` and `boundary` consist of the edges it owns, in any
order and seen from either side. -/
structure CeedDivides (Q : GProblem) {n : ℕ} (pm : Fin n → PMesh) (gid : Fin n → ℕ → ℕ)
    (eowner : GEdge → Fin n) (bowner : BEdge → Fin n) : Prop where
  valid : ∀ p, EdgesValid (pm p)
  inj : ∀ p, ∀ c < (pm p).numCells, ∀ c' < (pm p).numCells, gid p c = gid p c' → c = c'
  area : ∀ p, ∀ c < (pm p).numCells, (pm p).area c = Q.area (gid p c)
  zc : ∀ p, ∀ c < (pm p).numCells, (pm p).zc c = Q.zc (gid p c)
  edges : ∀ p, ∃ l, List.Perm l ((pm p).internal.filter fun e => e.right.isSome) ∧
    List.Forall₂ (Sees (gid p)) (Q.edges.filter fun e => eowner e = p) l
  bedges : ∀ p, List.Perm ((pm p).boundary.map fun e => { e with cell := gid p e.cell })
    (Q.bedges.filter fun b => bowner b = p)

/-- Owned cells come first in the local numbering (then the places the flux operators write to are the
places of the cells). -/
def OwnedFirst (pm : PMesh) : Prop := ∀ c < pm.numCells, pm.l2o c = c

/-! ### CEED's fluxes seen from the other side -/

theorem roeFluxCeed_zero {g : ℝ} (tinyH hAnuga : ℝ) (qL qR : Cons) (sn cn : ℝ) (hg : 0 ≤ g) :
    roeFluxCeed g tinyH hAnuga qL qR sn cn 0 =
      (velocitiesCeed tinyH hAnuga qL).bind fun L => (velocitiesCeed tinyH hAnuga qR).bind fun R =>
        roeFlux g L R sn cn := by
  unfold roeFluxCeed roeFlux
  simp only [roeEigCeed_eq hg]
  congr 1
  funext L
  congr 1
  funext R
  congr 3
  ext <;> simp

theorem roeFluxCeed_swap {g : ℝ} (tinyH hAnuga : ℝ) (qL qR : Cons) (sn cn : ℝ) (hg : 0 ≤ g) :
    (roeFluxCeed g tinyH hAnuga qR qL (-sn) (-cn) 0).map Prod.fst =
      ((roeFluxCeed g tinyH hAnuga qL qR sn cn 0).map Prod.fst).map Flux.opp := by
  rw [roeFluxCeed_zero _ _ _ _ _ _ hg, roeFluxCeed_zero _ _ _ _ _ _ hg]
  cases hL : velocitiesCeed tinyH hAnuga qL with
  | none =>
    cases hR : velocitiesCeed tinyH hAnuga qR <;> rfl
  | some L =>
    cases hR : velocitiesCeed tinyH hAnuga qR with
    | none => rfl
    | some R =>
      simp only [Option.bind_some]
      rw [C37_antisymmetric]
      cases roeFlux g L R sn cn <;> rfl

theorem facePairCeed_swap {P : FlowParams} (hr : Bool) (zL zR : ℝ) (qL qR : Cons) (sn cn : ℝ)
    (hg : 0 ≤ P.g) :
    facePairCeed P hr zR zL qR qL (-sn) (-cn) =
      (facePairCeed P hr zL zR qL qR sn cn).map fun F => (F.2.opp, F.1.opp) := by
  unfold facePairCeed
  cases hr with
  | false =>
    simp only [Bool.false_eq_true, if_false]
    have h : (edgeFluxCeed P.g P.tinyH P.hAnuga qR qL (-sn) (-cn) 0).map Prod.fst =
        ((edgeFluxCeed P.g P.tinyH P.hAnuga qL qR sn cn 0).map Prod.fst).map Flux.opp := by
      unfold edgeFluxCeed
      by_cases hw : qL.h > P.tinyH ∨ qR.h > P.tinyH
      · rw [if_pos hw, if_pos (Or.symm hw), roeFluxCeed_swap _ _ _ _ _ _ hg]
      · rw [if_neg hw, if_neg (fun h => hw (Or.symm h))]
        simp [Flux.opp]
    have h2 := congrArg (Option.map fun F : Flux => (F, F)) h
    rw [Option.map_map, Option.map_map, Option.map_map] at h2
    rw [Option.map_map]
    exact h2
  | true =>
    simp only [if_true]
    unfold hrPairCeed
    by_cases hw : qL.h > P.tinyH ∨ qR.h > P.tinyH
    · rw [if_pos hw, if_pos (Or.symm hw), max_comm zR zL]
      cases hL : hrStateCeed P zL (max zL zR) qL with
      | none => cases hR : hrStateCeed P zR (max zL zR) qR <;> rfl
      | some L =>
        cases hR : hrStateCeed P zR (max zL zR) qR with
        | none => rfl
        | some R =>
          simp only [Option.bind_some]
          have hF : hrFluxCeed P R L (-sn) (-cn) = (hrFluxCeed P L R sn cn).map Flux.opp := by
            unfold hrFluxCeed
            by_cases h : L.h > P.tinyH ∨ R.h > P.tinyH
            · rw [if_pos h, if_pos (Or.symm h), roeFluxCeed_swap _ _ _ _ _ _ hg]
            · rw [if_neg h, if_neg (fun h2 => h (Or.symm h2))]
              simp [Flux.opp]
          rw [hF, Option.map_map, Option.map_map]
          congr 1
          funext F
          simp only [Function.comp, hrCorrection_swap, opp_add]
    · rw [if_neg hw, if_neg (fun h => hw (Or.symm h))]
      simp [Flux.opp]

/-! ### Sums over the local entries of a global cell -/

/-- component `k` of what a local vector adds to the global cell `γ` -/
noncomputable def entryOf (N : ℕ) (gid : ℕ → ℕ) (γ : ℕ) (k : Flux → ℝ) (f : ℕ → Flux) : ℝ :=
  ∑ i ∈ range N, if gid i = γ then k (f i) else 0

theorem entryOf_addAt {N : ℕ} (gid : ℕ → ℕ) (γ : ℕ) {k : Flux → ℝ} (hk : LinF k) (f : ℕ → Flux) {j : ℕ}
    (hj : j < N) (F : Flux) :
    entryOf N gid γ k (addAt f j F) = entryOf N gid γ k f + if gid j = γ then k F else 0 := by
  unfold entryOf
  have : ∀ i ∈ range N, (if gid i = γ then k (addAt f j F i) else 0) =
      (if gid i = γ then k (f i) else 0) + if i = j then (if gid j = γ then k F else 0) else 0 := by
    intro i _
    unfold addAt
    by_cases e : i = j
    · subst e
      by_cases h : gid i = γ <;> simp [h, hk.add]
    · simp [e]
  rw [sum_congr rfl this, sum_add_distrib, sum_ite_eq' (range N) j]
  simp [hj]

/-- what a local edge adds to the global cell `γ` with CEED -/
noncomputable def ceedTerm (P : FlowParams) (hr : Bool) (pm : PMesh) (gid : ℕ → ℕ) (u : ℕ → Cons) (γ : ℕ)
    (k : Flux → ℝ) (e : IEdge) : ℝ :=
  match e.right with
  | none => 0
  | some r =>
    (if gid (pm.l2o e.left) = γ then
      k ((facePairCeed P hr (pm.zc e.left) (pm.zc r) (u e.left) (u r) e.sn e.cn).getD
        (Flux.zero, Flux.zero)).1 * (-e.len / pm.area e.left) else 0) +
    if gid (pm.l2o r) = γ then
      k ((facePairCeed P hr (pm.zc e.left) (pm.zc r) (u e.left) (u r) e.sn e.cn).getD
        (Flux.zero, Flux.zero)).2 * (e.len / pm.area r) else 0

theorem ceedStep_entry {P : FlowParams} {hr : Bool} {pm : PMesh} {k : Flux → ℝ} (hk : LinF k)
    (hv : EdgesValid pm) (hl2o : ∀ c < pm.numCells, pm.l2o c < pm.numCells) (gid : ℕ → ℕ) (u : ℕ → Cons)
    (γ : ℕ) (f f' : ℕ → Flux) (e : IEdge) (he : e ∈ pm.internal)
    (h : (if hr then ceedEdgeHR P pm u else ceedEdge P pm u) f e = some f') :
    entryOf pm.numCells gid γ k f' =
      entryOf pm.numCells gid γ k f + ceedTerm P hr pm gid u γ k e := by
  unfold ceedTerm
  cases hre : e.right with
  | none =>
    cases hr <;> simp only [Bool.false_eq_true, if_false, if_true, ceedEdge, ceedEdgeHR, hre,
      Option.some.injEq] at h <;> subst h <;> simp
  | some r =>
    have hl := hl2o _ (hv.left e he)
    have hrr := hl2o _ (hv.right e he r hre)
    cases hr with
    | false =>
      simp only [Bool.false_eq_true, if_false, ceedEdge, hre, Option.map_eq_some_iff] at h
      obtain ⟨F, hF, rfl⟩ := h
      rw [entryOf_addAt gid γ hk _ hrr, entryOf_addAt gid γ hk _ hl, hk.smul, hk.smul, add_assoc]
      simp only [facePairCeed, Bool.false_eq_true, if_false, hF, Option.map_some, Option.getD_some]
    | true =>
      simp only [if_true, ceedEdgeHR, hre, Option.map_eq_some_iff] at h
      obtain ⟨F, hF, rfl⟩ := h
      rw [entryOf_addAt gid γ hk _ hrr, entryOf_addAt gid γ hk _ hl, hk.smul, hk.smul, add_assoc]
      simp only [facePairCeed, if_true, hF, Option.getD_some]

theorem ceedBStep_entry {P : FlowParams} {pm : PMesh} {k : Flux → ℝ} (hk : LinF k)
    (hv : EdgesValid pm) (hl2o : ∀ c < pm.numCells, pm.l2o c < pm.numCells) (gid : ℕ → ℕ) (u : ℕ → Cons)
    (γ : ℕ) (f f' : ℕ → Flux) (e : BEdge) (he : e ∈ pm.boundary) (h : ceedBEdge P pm u f e = some f') :
    entryOf pm.numCells gid γ k f' = entryOf pm.numCells gid γ k f +
      if gid (pm.l2o e.cell) = γ then k (bndFluxCeed P u e) * (-e.len / pm.area e.cell) else 0 := by
  unfold ceedBEdge at h
  simp only [Option.map_eq_some_iff] at h
  obtain ⟨F, hF, rfl⟩ := h
  rw [entryOf_addAt gid γ hk _ (hl2o _ (hv.cell e he)), hk.smul]
  simp only [bndFluxCeed, hF, Option.map_some, Option.getD_some]

theorem ceedTerm_sees {Q : GProblem} {P : FlowParams} {hr : Bool} {n : ℕ} {pm : Fin n → PMesh}
    {gid : Fin n → ℕ → ℕ} {eowner : GEdge → Fin n} {bowner : BEdge → Fin n}
    (hD : CeedDivides Q pm gid eowner bowner) (hg : 0 ≤ P.g) (p : Fin n) (hf : OwnedFirst (pm p))
    (U : ℕ → Cons) (γ : ℕ) {k : Flux → ℝ} (hk : LinF k) {ge : GEdge} {le : IEdge}
    (hle : le ∈ (pm p).internal) (hs : Sees (gid p) ge le) :
    ceedTerm P hr (pm p) (gid p) (fun c => U (gid p c)) γ k le =
      (if ge.c1 = γ then k ((facePairCeed P hr (Q.zc ge.c1) (Q.zc ge.c2) (U ge.c1) (U ge.c2) ge.sn
        ge.cn).getD (Flux.zero, Flux.zero)).1 * (-ge.len / Q.area γ) else 0) +
      if ge.c2 = γ then k ((facePairCeed P hr (Q.zc ge.c1) (Q.zc ge.c2) (U ge.c1) (U ge.c2) ge.sn
        ge.cn).getD (Flux.zero, Flux.zero)).2 * (ge.len / Q.area γ) else 0 := by
  obtain ⟨r, hre, hlen, hcase⟩ := hs
  have hl := (hD.valid p).left le hle
  have hrr := (hD.valid p).right le hle r hre
  unfold ceedTerm
  rw [hre]
  simp only [hf _ hl, hf _ hrr, hD.zc p _ hl, hD.zc p _ hrr, hD.area p _ hl, hD.area p _ hrr, hlen]
  rcases hcase with ⟨h1, h2, h3, h4⟩ | ⟨h1, h2, h3, h4⟩
  · rw [h1, h2, h3, h4]
    congr 1
    · by_cases hx : ge.c1 = γ
      · rw [if_pos hx, if_pos hx, hx]
      · rw [if_neg hx, if_neg hx]
    · by_cases hx : ge.c2 = γ
      · rw [if_pos hx, if_pos hx, hx]
      · rw [if_neg hx, if_neg hx]
  · rw [h1, h2, h3, h4, facePairCeed_swap hr _ _ _ _ _ _ hg, getD_swap]
    simp only [hk.opp]
    rw [add_comm]
    congr 1
    · by_cases hx : ge.c1 = γ
      · rw [if_pos hx, if_pos hx, hx]; ring
      · rw [if_neg hx, if_neg hx]
    · by_cases hx : ge.c2 = γ
      · rw [if_pos hx, if_pos hx, hx]; ring
      · rw [if_neg hx, if_neg hx]

/-- distributing a list over processes does not change a sum -/
theorem sum_filter_owner {α : Type} {n : ℕ} (o : α → Fin n) (D : α → ℝ) (L : List α) :
    ∑ p, ((L.filter fun a => o a = p).map D).sum = (L.map D).sum := by
  induction L with
  | nil => simp
  | cons a L ih =>
    have : ∀ p, (((a :: L).filter fun a => o a = p).map D).sum =
        (if o a = p then D a else 0) + ((L.filter fun a => o a = p).map D).sum := by
      intro p
      rw [List.filter_cons]
      by_cases h : o a = p
      · rw [if_pos (by simpa using h), if_pos h]; simp
      · rw [if_neg (by simpa using h), if_neg h, zero_add]
    rw [sum_congr rfl fun p _ => this p, sum_add_distrib, ih]
    simp

theorem forall2_sum {α β : Type} {R : α → β → Prop} (D : α → ℝ) (d : β → ℝ) {l1 : List α} {l2 : List β}
    (h : List.Forall₂ R l1 l2) : (∀ a ∈ l1, ∀ b ∈ l2, R a b → d b = D a) →
      (l2.map d).sum = (l1.map D).sum := by
  induction h with
  | nil => intro _; rfl
  | @cons a b l1 l2 hab _ ih =>
    intro H
    rw [List.map_cons, List.sum_cons, List.map_cons, List.sum_cons, H a (by simp) b (by simp) hab,
      ih fun a' ha' b' hb' => H a' (List.mem_cons_of_mem _ ha') b' (List.mem_cons_of_mem _ hb')]

/-- C73 for CEED, partial: if on every process the owned cells come first in the local numbering, then
for every division among processes, edge ownership, order and orientation of edges, the flux divergence that
`DMLocalToGlobal` assembles for a cell is the one of the undivided problem. Missing: local numberings in
which a ghost cell precedes an owned cell, see `C73_ceed_numbering_violated`. -/
theorem C73_ceed_partial {Q : GProblem} {P : FlowParams} {hr : Bool} {n : ℕ} {pm : Fin n → PMesh}
    {gid : Fin n → ℕ → ℕ} {eowner : GEdge → Fin n} {bowner : BEdge → Fin n}
    (hD : CeedDivides Q pm gid eowner bowner) (hg : 0 ≤ P.g) (hf : ∀ p, OwnedFirst (pm p)) (U : ℕ → Cons)
    (f : Fin n → ℕ → Flux)
    (h : ∀ p, ceedDivergence P hr (pm p) (fun c => U (gid p c)) = some (f p)) (γ : ℕ) {k : Flux → ℝ}
    (hk : LinF k) :
    localToGlobalAdd (fun p => (pm p).numCells) gid f k γ = Q.divCeed P hr U γ k := by
  have hlocal : ∀ p, entryOf (pm p).numCells (gid p) γ k (f p) =
      ((pm p).internal.map (ceedTerm P hr (pm p) (gid p) (fun c => U (gid p c)) γ k)).sum +
      ((pm p).boundary.map fun e => if gid p ((pm p).l2o e.cell) = γ then
        k (bndFluxCeed P (fun c => U (gid p c)) e) * (-e.len / (pm p).area e.cell) else 0).sum := by
    intro p
    have hx := h p
    unfold ceedDivergence at hx
    rw [Option.bind_eq_some_iff] at hx
    obtain ⟨f1, h1, h2⟩ := hx
    have hl2o : ∀ c < (pm p).numCells, (pm p).l2o c < (pm p).numCells := fun c hc => by
      rw [hf p c hc]; exact hc
    have s1 := foldlM_sum _ (entryOf (pm p).numCells (gid p) γ k)
      (ceedTerm P hr (pm p) (gid p) (fun c => U (gid p c)) γ k) (pm p).internal _ _
      (fun f e f' he hs => ceedStep_entry hk (hD.valid p) hl2o (gid p) _ γ f f' e he hs) h1
    have s2 := foldlM_sum _ (entryOf (pm p).numCells (gid p) γ k) _ (pm p).boundary _ _
      (fun f e f' he hs => ceedBStep_entry hk (hD.valid p) hl2o (gid p) _ γ f f' e he hs) h2
    have hz : entryOf (pm p).numCells (gid p) γ k (fun _ => Flux.zero) = 0 := by
      unfold entryOf
      apply sum_eq_zero
      intro i _
      rw [hk.zero]
      simp
    rw [s2, s1, hz, zero_add]
  have hsum : localToGlobalAdd (fun p => (pm p).numCells) gid f k γ =
      ∑ p, entryOf (pm p).numCells (gid p) γ k (f p) := rfl
  rw [hsum, sum_congr rfl fun p _ => hlocal p, sum_add_distrib]
  unfold GProblem.divCeed
  congr 1
  · rw [← sum_filter_owner eowner]
    apply sum_congr rfl
    intro p _
    obtain ⟨l, hperm, hall⟩ := hD.edges p
    have e1 : ((pm p).internal.map (ceedTerm P hr (pm p) (gid p) (fun c => U (gid p c)) γ k)).sum =
        (((pm p).internal.filter fun e => e.right.isSome).map
          (ceedTerm P hr (pm p) (gid p) (fun c => U (gid p c)) γ k)).sum := by
      generalize (pm p).internal = L
      induction L with
      | nil => rfl
      | cons a L ih =>
        rw [List.filter_cons, List.map_cons, List.sum_cons, ih]
        by_cases ha : a.right.isSome = true
        · rw [if_pos ha]; rfl
        · have ha' : a.right = none := by simpa using ha
          rw [if_neg ha]
          simp [ceedTerm, ha']
    rw [e1, ← (hperm.map _).sum_eq]
    exact forall2_sum _ _ hall fun ge _ le hle hs =>
      ceedTerm_sees hD hg p (hf p) U γ hk (List.mem_of_mem_filter (hperm.mem_iff.mp hle)) hs
  · rw [← sum_filter_owner bowner]
    apply sum_congr rfl
    intro p _
    rw [← ((hD.bedges p).map _).sum_eq, List.map_map]
    congr 1
    apply List.map_congr_left
    intro e he
    have hc := (hD.valid p).cell e he
    simp only [Function.comp, hf p _ hc, hD.area p _ hc]
    by_cases hx : gid p e.cell = γ
    · rw [if_pos hx, if_pos hx, ← hx]; rfl
    · rw [if_neg hx, if_neg hx]

/-- C73 for CEED: two divisions with owned cells first give every cell the same flux divergence. -/
theorem C73_ceed_independent_partial {Q : GProblem} {P : FlowParams} {hr : Bool} {n n' : ℕ}
    {pm : Fin n → PMesh} {gid : Fin n → ℕ → ℕ} {eowner : GEdge → Fin n} {bowner : BEdge → Fin n}
    {pm' : Fin n' → PMesh} {gid' : Fin n' → ℕ → ℕ} {eowner' : GEdge → Fin n'} {bowner' : BEdge → Fin n'}
    (hD : CeedDivides Q pm gid eowner bowner) (hD' : CeedDivides Q pm' gid' eowner' bowner')
    (hg : 0 ≤ P.g) (hf : ∀ p, OwnedFirst (pm p)) (hf' : ∀ p, OwnedFirst (pm' p)) (U : ℕ → Cons)
    (f : Fin n → ℕ → Flux) (f' : Fin n' → ℕ → Flux)
    (h : ∀ p, ceedDivergence P hr (pm p) (fun c => U (gid p c)) = some (f p))
    (h' : ∀ p, ceedDivergence P hr (pm' p) (fun c => U (gid' p c)) = some (f' p)) (γ : ℕ) :
    localToGlobalAdd (fun p => (pm p).numCells) gid f Flux.m γ =
      localToGlobalAdd (fun p => (pm' p).numCells) gid' f' Flux.m γ ∧
    localToGlobalAdd (fun p => (pm p).numCells) gid f Flux.x γ =
      localToGlobalAdd (fun p => (pm' p).numCells) gid' f' Flux.x γ ∧
    localToGlobalAdd (fun p => (pm p).numCells) gid f Flux.y γ =
      localToGlobalAdd (fun p => (pm' p).numCells) gid' f' Flux.y γ := by
  have key : ∀ k, LinF k → localToGlobalAdd (fun p => (pm p).numCells) gid f k γ =
      localToGlobalAdd (fun p => (pm' p).numCells) gid' f' k γ := fun k hk => by
    rw [C73_ceed_partial hD hg hf U f h γ hk, C73_ceed_partial hD' hg hf' U f' h' γ hk]
  exact ⟨key _ linF_m, key _ linF_x, key _ linF_y⟩

/-! ### Local numberings -/

theorem ghostBelow_zero (own : ℕ → Bool) (c : ℕ) (h : ∀ c' < c, own c' = true) : ghostBelow own c = 0 := by
  induction c with
  | zero => rfl
  | succ c ih =>
    rw [ghostBelow_succ, ih fun c' hc' => h c' (by omega), if_pos (h c (by omega))]

theorem ownedBelow_const (own : ℕ → Bool) (c n : ℕ) (hcn : c ≤ n)
    (h : ∀ i, c ≤ i → i < n → own i = false) : ownedBelow own n = ownedBelow own c := by
  induction n, hcn using Nat.le_induction with
  | base => rfl
  | succ n hn ih =>
    rw [ownedBelow_succ, ih fun i h1 h2 => h i h1 (by omega), h n hn (by omega)]
    simp

/-- The places that the flux operators write to are the places of the cells exactly if no ghost cell precedes
an owned cell in the local numbering. -/
theorem C73_owned_first_iff (own : ℕ → Bool) (n : ℕ) :
    (∀ c < n, (numberCells own n).l2o c = c) ↔ ∀ c < n, ∀ c' < c, own c = true → own c' = true := by
  obtain ⟨a1, a2, -, -⟩ := ownedLoop own n
  obtain ⟨-, b2, -⟩ := ghostLoop own ((List.range n).foldl (numOwnedStep own) NumState.init) n
  have hl : ∀ i < n, own i = true → (numberCells own n).l2o i = ownedBelow own i := by
    intro i hi ho
    unfold numberCells
    rw [b2 i, if_neg (by simp [ho]), a2 i, if_pos ⟨hi, ho⟩]
  have hg : ∀ i < n, own i = false → (numberCells own n).l2o i = ownedBelow own n + ghostBelow own i := by
    intro i hi ho
    unfold numberCells
    rw [b2 i, if_pos ⟨hi, ho⟩, a1]
  constructor
  · intro h c hc c' hc' ho
    by_contra hn
    have h1 := h c hc
    rw [hl c hc ho] at h1
    have h2 := below_add own c
    have h3 := ghostBelow_lt own hc' (by simpa using hn)
    omega
  · intro h c hc
    cases ho : own c with
    | true =>
      rw [hl c hc ho]
      have h1 := ghostBelow_zero own c fun c' hc' => h c hc c' hc' ho
      have h2 := below_add own c
      omega
    | false =>
      rw [hg c hc ho, ownedBelow_const own c n (le_of_lt hc)]
      · have h2 := below_add own c
        omega
      · intro i h1 h2
        rcases Nat.eq_or_lt_of_le h1 with rfl | h3
        · exact ho
        · by_contra hi
          have := h i h2 c h3 (by simpa using hi)
          rw [ho] at this
          exact absurd this (by simp)

example : ∀ c < 5, (numberCells (fun c => decide (c < 3)) 5).l2o c = c :=
  (C73_owned_first_iff _ 5).mpr fun c _ c' hc' h => by
    simp only [decide_eq_true_eq] at *
    omega

/-- two processes; on process 0 the ghost cell comes before the owned cell -/
noncomputable def exCeedGhostFirst (p : Fin 2) : PMesh where
  numCells := 2
  area _ := 1 / 2
  owned c := if p = 0 then c == 1 else c == 0
  l2o c := if p = 0 then 1 - c else c
  internal := if p = 0 then [⟨1, some 0, 1, 0, 1⟩] else []
  boundary := if p = 0 then [⟨1, 1, 0, -1, .reflecting⟩] else [⟨0, 1, 0, 1, .reflecting⟩]
  dzdx _ := 0
  dzdy _ := 0
  zc _ := 0

/-- the same two processes with the owned cell first -/
noncomputable def exCeedOwnedFirst (p : Fin 2) : PMesh where
  numCells := 2
  area _ := 1 / 2
  owned c := c == 0
  l2o c := c
  internal := if p = 0 then [⟨0, some 1, 1, 0, 1⟩] else []
  boundary := if p = 0 then [⟨0, 1, 0, -1, .reflecting⟩] else [⟨0, 1, 0, 1, .reflecting⟩]
  dzdx _ := 0
  dzdy _ := 0
  zc _ := 0

/-- `local_to_owned` of the example is what `numberCells` computes -/
example (p : Fin 2) : ∀ c < 2, (numberCells (exCeedGhostFirst p).owned 2).l2o c = (exCeedGhostFirst p).l2o c := by
  intro c hc
  fin_cases p <;> interval_cases c <;> simp [exCeedGhostFirst, numberCells, numOwnedStep, numGhostStep,
    NumState.init, List.range_succ]

theorem exCeedGhostFirst_divides : CeedDivides exProblem exCeedGhostFirst (fun _ c => 1 - c) (fun _ => 0)
    (fun b => if b.cell = 0 then 0 else 1) where
  valid p := by
    refine ⟨?_, ?_, ?_, ?_⟩ <;> fin_cases p <;> simp [exCeedGhostFirst]
  inj p c hc c' hc' h := by
    simp only [exCeedGhostFirst] at hc hc'
    omega
  area _ _ _ := rfl
  zc _ _ _ := rfl
  edges p := by
    refine ⟨(exCeedGhostFirst p).internal, ?_, ?_⟩
    · fin_cases p <;> simp [exCeedGhostFirst]
    · fin_cases p
      · simp only [exCeedGhostFirst, exProblem, List.filter_cons, List.filter_nil]
        exact List.Forall₂.cons ⟨0, rfl, rfl, Or.inl ⟨rfl, rfl, rfl, rfl⟩⟩ List.Forall₂.nil
      · simp [exCeedGhostFirst, exProblem]
  bedges p := by
    fin_cases p <;> simp [exCeedGhostFirst, exProblem]

theorem exCeedOwnedFirst_divides : CeedDivides exProblem exCeedOwnedFirst exGid (fun _ => 0)
    (fun b => if b.cell = 0 then 0 else 1) where
  valid p := by
    refine ⟨?_, ?_, ?_, ?_⟩ <;> fin_cases p <;> simp [exCeedOwnedFirst]
  inj p c hc c' hc' h := by
    simp only [exCeedOwnedFirst] at hc hc'
    unfold exGid at h
    split at h <;> omega
  area _ _ _ := rfl
  zc _ _ _ := rfl
  edges p := by
    refine ⟨(exCeedOwnedFirst p).internal, ?_, ?_⟩
    · fin_cases p <;> simp [exCeedOwnedFirst]
    · fin_cases p
      · simp only [exCeedOwnedFirst, exProblem, List.filter_cons, List.filter_nil]
        exact List.Forall₂.cons ⟨1, rfl, rfl, Or.inl ⟨rfl, rfl, rfl, rfl⟩⟩ List.Forall₂.nil
      · simp [exCeedOwnedFirst, exProblem]
  bedges p := by
    fin_cases p <;> simp [exCeedOwnedFirst, exProblem, exGid]

/-! ### A ghost cell before an owned cell -/

theorem velocitiesCeed_rest {tinyH d : ℝ} (hAnuga : ℝ) (ht : 0 < tinyH) (hdt : d ≠ tinyH) :
    velocitiesCeed tinyH hAnuga ⟨d, 0, 0⟩ = some ⟨d, 0, 0⟩ := by
  rw [velocitiesCeed_eq hAnuga _ ht hdt]
  unfold velocities
  split <;> simp

theorem wall_rest {P : FlowParams} {d cn : ℝ} (hg : 0 < P.g) (ht : 0 < P.tinyH) (hd : P.tinyH < d) :
    ∃ G a, boundaryFluxCeed P .reflecting ⟨d, 0, 0⟩ 0 cn = some (G, a) ∧ G.m = 0 := by
  have hd0 : 0 < d := lt_trans ht hd
  refine ⟨physFlux P.g ⟨d, 0, 0⟩ cn 0, √(P.g * d) + |0 * cn + 0 * 0|, ?_, by simp [physFlux]⟩
  unfold boundaryFluxCeed reflectFluxCeed
  simp only
  rw [if_pos hd]
  have : (⟨d, 0 * (0 * 0 - cn * cn) - 0 * (2 * 0 * cn), -0 * (2 * 0 * cn) - 0 * (0 * 0 - cn * cn)⟩ : Cons) =
      ⟨d, 0, 0⟩ := by simp
  rw [this, roeFluxCeed_zero _ _ _ _ _ _ (le_of_lt hg),
    velocitiesCeed_rest _ ht (ne_of_gt hd)]
  simp only [Option.bind_some]
  rw [C36_consistent _ _ _ hg hd0]

/-- between still water of depth `d` and shallower still water, mass flows to the shallow side -/
theorem step_rest {P : FlowParams} {d d' : ℝ} (hg : 0 < P.g) (ht : 0 < P.tinyH) (hd : P.tinyH < d')
    (hdd : d' < d) :
    ∃ F a, edgeFluxCeed P.g P.tinyH P.hAnuga ⟨d, 0, 0⟩ ⟨d', 0, 0⟩ 0 1 0 = some (F, a) ∧ 0 < F.m := by
  have hd0 : 0 < d' := lt_trans ht hd
  have hd1 : 0 < d := lt_trans hd0 hdd
  have hdef : RoeDefined d d' := ⟨le_of_lt hd1, le_of_lt hd0, by linarith⟩
  refine ⟨roeCombine (sideFlux P.g ⟨d, 0, 0⟩ 0 1) (sideFlux P.g ⟨d', 0, 0⟩ 0 1)
    (roeEig P.g ⟨d, 0, 0⟩ ⟨d', 0, 0⟩ 0 1) 0 1, (roeEig P.g ⟨d, 0, 0⟩ ⟨d', 0, 0⟩ 0 1).amax, ?_, ?_⟩
  · unfold edgeFluxCeed
    rw [if_pos (Or.inr hd), roeFluxCeed_zero _ _ _ _ _ _ (le_of_lt hg),
      velocitiesCeed_rest _ ht (by linarith), velocitiesCeed_rest _ ht (ne_of_gt hd)]
    simp only [Option.bind_some]
    unfold roeFlux
    rw [if_pos hdef]
  · have hc := roeC_pos hg hdef
    have hw1 : (roeEig P.g ⟨d, 0, 0⟩ ⟨d', 0, 0⟩ 0 1).w1 = 0.5 * (d' - d) := by
      simp [roeEig, uperp]
    have hw3 : (roeEig P.g ⟨d, 0, 0⟩ ⟨d', 0, 0⟩ 0 1).w3 = 0.5 * (d' - d) := by
      simp [roeEig, uperp]
    have hu : roeAvg d d' 0 0 = 0 := by unfold roeAvg; simp
    have ha1 : 0 < (roeEig P.g ⟨d, 0, 0⟩ ⟨d', 0, 0⟩ 0 1).a1 := by
      refine lt_of_lt_of_le ?_ (entropyFix_ge (abs_nonneg _))
      simp only [hu, uperp]
      rw [abs_pos]
      intro h
      linarith
    have ha3 : 0 ≤ (roeEig P.g ⟨d, 0, 0⟩ ⟨d', 0, 0⟩ 0 1).a3 := entropyFix_nonneg (abs_nonneg _)
    simp only [roeCombine, sideFlux, uperp, hw1, hw3]
    have h1 := mul_pos ha1 (sub_pos.mpr hdd)
    have h3 := mul_nonneg ha3 (le_of_lt (sub_pos.mpr hdd))
    linarith

/-- still water of depth 2 in cell 0, of depth 1 in cell 1 -/
noncomputable def exSteps (γ : ℕ) : Cons := ⟨if γ = 0 then 2 else 1, 0, 0⟩

/-- with the owned cells first, the two processes together compute the divergence of the undivided mesh -/
example : ∃ f : Fin 2 → ℕ → Flux,
    (∀ p, ceedDivergence exParams false (exCeedOwnedFirst p) (fun c => exSteps (exGid p c)) = some (f p)) ∧
    ∀ γ, localToGlobalAdd (fun p => (exCeedOwnedFirst p).numCells) exGid f Flux.m γ =
      exProblem.divCeed exParams false exSteps γ Flux.m := by
  have hg : 0 < exParams.g := by norm_num [exParams]
  have ht : 0 < exParams.tinyH := by norm_num [exParams]
  have ht1 : exParams.tinyH < 1 := by norm_num [exParams]
  have ht2 : exParams.tinyH < 2 := by norm_num [exParams]
  obtain ⟨F, a, hF, -⟩ := step_rest (P := exParams) (d := 2) (d' := 1) hg ht ht1 (by norm_num)
  obtain ⟨G, b, hG, -⟩ := wall_rest (P := exParams) (d := 2) (cn := -1) hg ht ht2
  obtain ⟨H, c, hH, -⟩ := wall_rest (P := exParams) (d := 1) (cn := 1) hg ht ht1
  have h : ∀ p, ∃ f, ceedDivergence exParams false (exCeedOwnedFirst p) (fun c => exSteps (exGid p c)) =
      some f := by
    intro p
    fin_cases p
    · simp [ceedDivergence, exCeedOwnedFirst, ceedEdge, ceedBEdge, exSteps, exGid, hF, hG]
    · simp [ceedDivergence, exCeedOwnedFirst, ceedBEdge, exSteps, exGid, hH]
  choose f hf using h
  exact ⟨f, hf, fun γ => C73_ceed_partial exCeedOwnedFirst_divides (by norm_num [exParams])
    (fun _ _ _ => rfl) exSteps f hf γ linF_m⟩

/-- C73 is violated with CEED: on process 0 the ghost cell has a smaller local number than the owned cell,
and the two cells receive each other's divergence. The deep cell gains mass although on the undivided mesh it
loses mass. DMPlex numbers cells by type, so that this happens on meshes of triangles and quadrilaterals. -/
theorem C73_ceed_numbering_violated :
    CeedDivides exProblem exCeedGhostFirst (fun _ c => 1 - c) (fun _ => 0)
      (fun b => if b.cell = 0 then 0 else 1) ∧
    ∃ f : Fin 2 → ℕ → Flux,
      (∀ p, ceedDivergence exParams false (exCeedGhostFirst p) (fun c => exSteps (1 - c)) = some (f p)) ∧
      exProblem.divCeed exParams false exSteps 0 Flux.m < 0 ∧
      0 < localToGlobalAdd (fun p => (exCeedGhostFirst p).numCells) (fun _ c => 1 - c) f Flux.m 0 := by
  have hg : 0 < exParams.g := by norm_num [exParams]
  have ht : 0 < exParams.tinyH := by norm_num [exParams]
  have ht1 : exParams.tinyH < 1 := by norm_num [exParams]
  have ht2 : exParams.tinyH < 2 := by norm_num [exParams]
  obtain ⟨F, a, hF, hFm⟩ := step_rest (P := exParams) (d := 2) (d' := 1) hg ht ht1 (by norm_num)
  obtain ⟨G, b, hG, hGm⟩ := wall_rest (P := exParams) (d := 2) (cn := -1) hg ht ht2
  obtain ⟨H, c, hH, hHm⟩ := wall_rest (P := exParams) (d := 1) (cn := 1) hg ht ht1
  refine ⟨exCeedGhostFirst_divides, fun p => if p = 0 then
    addAt (addAt (addAt (fun _ => Flux.zero) 0 (F.smul (-1 / (1 / 2)))) 1 (F.smul (1 / (1 / 2)))) 0
      (G.smul (-1 / (1 / 2))) else addAt (fun _ => Flux.zero) 0 (H.smul (-1 / (1 / 2))), ?_, ?_, ?_⟩
  · intro p
    fin_cases p
    · simp [ceedDivergence, exCeedGhostFirst, ceedEdge, ceedBEdge, exSteps, hF, hG]
    · simp [ceedDivergence, exCeedGhostFirst, ceedBEdge, exSteps, hH]
  · simp [GProblem.divCeed, exProblem, facePairCeed, exSteps, hF, bndFluxCeed, hG, hGm]
    linarith
  · simp [localToGlobalAdd, exCeedGhostFirst, Finset.sum_range_succ, addAt, Flux.add, Flux.smul, Flux.zero, hGm,
      hHm]
    linarith

end RDy
