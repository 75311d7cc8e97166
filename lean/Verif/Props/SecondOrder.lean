import Verif.Model.SecondOrder
import Verif.Props.Muscl
import Verif.Props.DecompositionCeed
import Verif.Props.Backends

/-!
C85: second-order runs. The states that enter the Riemann solver, the gradients of ghost cells, and the result
for every cell do not depend on how the mesh is divided among processes.
-/

namespace RDy

open Finset

/-! ### Specification: the undivided problem -/

/-- A problem solved with second-order reconstruction: cells with their data (`Q`, of which `edges` is not
used), centroids, and interior edges between cells of the whole mesh. -/
structure MProblem where
  Q : GProblem
  x : ℕ → ℝ
  y : ℕ → ℝ
  edges : List MEdge

/-- the whole mesh as seen by the gradients -/
def MProblem.ls (M : MProblem) : LSMesh := ⟨M.x, M.y, M.edges.map fun e => (e.left, e.right)⟩

/-- the states on the two sides of an edge, computed on the whole mesh -/
noncomputable def MProblem.states (M : MProblem) (l : Limiter) (U : ℕ → Cons) (e : MEdge) : Cons × Cons :=
  ((reconstructEdge l M.ls (fieldOf U) (lsGradients M.ls (fieldOf U)) e).qL,
   (reconstructEdge l M.ls (fieldOf U) (lsGradients M.ls (fieldOf U)) e).qR)

/-- the flux between two states, as each backend computes it in first-order runs -/
noncomputable def stateFlux (P : FlowParams) (ceed : Bool) (s : Cons × Cons) (sn cn : ℝ) : Option Flux :=
  if ceed then (edgeFluxCeed P.g P.tinyH P.hAnuga s.1 s.2 sn cn 0).map Prod.fst
  else usedFlux P.g P.tinyH (velocities P.tinyH P.hAnuga s.1) (velocities P.tinyH P.hAnuga s.2) sn cn

/-- component `k` of what an interior edge contributes to cell `γ` -/
noncomputable def MProblem.edgeTerm (M : MProblem) (P : FlowParams) (ceed : Bool) (l : Limiter)
    (U : ℕ → Cons) (γ : ℕ) (k : Flux → ℝ) (e : MEdge) : ℝ :=
  (if e.left = γ then k ((stateFlux P ceed (M.states l U e) e.sn e.cn).getD Flux.zero) *
    (-e.len / M.Q.area γ) else 0) +
  if e.right = γ then k ((stateFlux P ceed (M.states l U e) e.sn e.cn).getD Flux.zero) *
    (e.len / M.Q.area γ) else 0

/-- component `k` of the interior flux divergence of cell `γ` -/
noncomputable def MProblem.interior (M : MProblem) (P : FlowParams) (ceed : Bool) (l : Limiter)
    (U : ℕ → Cons) (γ : ℕ) (k : Flux → ℝ) : ℝ :=
  (M.edges.map (M.edgeTerm P ceed l U γ k)).sum

/-- component `k` of the flux divergence of cell `γ` (PETSc) -/
noncomputable def MProblem.div (M : MProblem) (P : FlowParams) (l : Limiter) (U : ℕ → Cons) (γ : ℕ)
    (k : Flux → ℝ) : ℝ :=
  M.interior P false l U γ k + (M.Q.bedges.map (M.Q.bndTerm P U γ k)).sum

/-- component `k` of the flux divergence of cell `γ` (CEED) -/
noncomputable def MProblem.divCeed (M : MProblem) (P : FlowParams) (l : Limiter) (U : ℕ → Cons) (γ : ℕ)
    (k : Flux → ℝ) : ℝ :=
  M.interior P true l U γ k + (M.Q.bedges.map fun e =>
    if e.cell = γ then k (bndFluxCeed P U e) * (-e.len / M.Q.area γ) else 0).sum

/-- A local edge represents an edge of the whole mesh: same cells, length and end points; which cell is on the
left, and with it the direction of the normal and the order of the end points, may differ. -/
def SeesM (gid : ℕ → ℕ) (ge le : MEdge) : Prop :=
  le.len = ge.len ∧
  ((gid le.left = ge.left ∧ gid le.right = ge.right ∧ le.sn = ge.sn ∧ le.cn = ge.cn) ∨
   (gid le.left = ge.right ∧ gid le.right = ge.left ∧ le.sn = -ge.sn ∧ le.cn = -ge.cn)) ∧
  ((le.x0 = ge.x0 ∧ le.y0 = ge.y0 ∧ le.x1 = ge.x1 ∧ le.y1 = ge.y1) ∨
   (le.x0 = ge.x1 ∧ le.y0 = ge.y1 ∧ le.x1 = ge.x0 ∧ le.y1 = ge.y0))

/-- A division of the mesh for a second-order run: cells and centroids are those of the whole mesh, every
cell is owned by one process, every process has (in any order) the edges of the cells it owns and possibly
further ones (`seen`), and every edge is owned by one process that has it. -/
structure MDivides (M : MProblem) {n : ℕ} (pr : Fin n → MProc) (gid : Fin n → ℕ → ℕ) (owner : ℕ → Fin n)
    (seen : Fin n → MEdge → Bool) (eowner : MEdge → Fin n) : Prop where
  valid : ∀ p, ∀ e ∈ (pr p).edges, e.left < (pr p).pm.numCells ∧ e.right < (pr p).pm.numCells
  lt : ∀ p, ∀ c < (pr p).pm.numCells, gid p c < M.Q.N
  inj : ∀ p, ∀ c < (pr p).pm.numCells, ∀ c' < (pr p).pm.numCells, gid p c = gid p c' → c = c'
  cover : ∀ γ < M.Q.N, ∃ c < (pr (owner γ)).pm.numCells, gid (owner γ) c = γ
  owned : ∀ p, ∀ c < (pr p).pm.numCells, (pr p).pm.owned c = true ↔ owner (gid p c) = p
  area : ∀ p, ∀ c < (pr p).pm.numCells, (pr p).pm.area c = M.Q.area (gid p c)
  x : ∀ p, ∀ c < (pr p).pm.numCells, (pr p).x c = M.x (gid p c)
  y : ∀ p, ∀ c < (pr p).pm.numCells, (pr p).y c = M.y (gid p c)
  edges : ∀ p, ∃ L, List.Perm L (pr p).edges ∧
    List.Forall₂ (fun ge le => SeesM (gid p) ge le ∧ (le.owned = true ↔ eowner ge = p))
      (M.edges.filter (seen p)) L
  sees : ∀ p, ∀ e ∈ M.edges, owner e.left = p ∨ owner e.right = p ∨ eowner e = p → seen p e = true

/-! ### Gradients -/

section Gradients

variable {M : MProblem} {n : ℕ} {pr : Fin n → MProc} {gid : Fin n → ℕ → ℕ} {owner : ℕ → Fin n}
  {seen : Fin n → MEdge → Bool} {eowner : MEdge → Fin n}

theorem owned_nsum (hD : MDivides M pr gid owner seen eowner) (q : ℕ → ℝ) (p : Fin n) {c : ℕ}
    (hc : c < (pr p).pm.numCells) (ho : (pr p).pm.owned c = true) (φ : Neighbour → ℝ) :
    nsum (neighbours (pr p).ls (fun i => q (gid p i)) c) φ = nsum (neighbours M.ls q (gid p c)) φ := by
  have hown := (hD.owned p c hc).mp ho
  rw [nsum_neighbours, nsum_neighbours]
  simp only [MProc.ls, MProblem.ls, List.map_map]
  obtain ⟨L, hperm, hall⟩ := hD.edges p
  have e1 : (M.edges.map ((fun e : ℕ × ℕ =>
      (if e.1 = gid p c then φ (neighbour M.ls q (gid p c) e.2) else 0) +
      (if e.2 = gid p c then φ (neighbour M.ls q (gid p c) e.1) else 0)) ∘ fun e : MEdge =>
        (e.left, e.right))).sum =
      ((M.edges.filter (seen p)).map ((fun e : ℕ × ℕ =>
      (if e.1 = gid p c then φ (neighbour M.ls q (gid p c) e.2) else 0) +
      (if e.2 = gid p c then φ (neighbour M.ls q (gid p c) e.1) else 0)) ∘ fun e : MEdge =>
        (e.left, e.right))).sum := by
    have hs := hD.sees p
    generalize M.edges = E at hs
    induction E with
    | nil => rfl
    | cons a E ih =>
      rw [List.filter_cons, List.map_cons, List.sum_cons, ih fun e he => hs e (List.mem_cons_of_mem _ he)]
      by_cases ha : seen p a = true
      · rw [if_pos ha]; rfl
      · rw [if_neg ha]
        have n1 : a.left ≠ gid p c := fun h => ha (hs a (by simp) (Or.inl (h ▸ hown)))
        have n2 : a.right ≠ gid p c := fun h => ha (hs a (by simp) (Or.inr (Or.inl (h ▸ hown))))
        simp [n1, n2]
  change _ = (M.edges.map ((fun e : ℕ × ℕ =>
      (if e.1 = gid p c then φ (neighbour M.ls q (gid p c) e.2) else 0) +
      (if e.2 = gid p c then φ (neighbour M.ls q (gid p c) e.1) else 0)) ∘ fun e : MEdge =>
        (e.left, e.right))).sum
  rw [e1, ← (hperm.map _).sum_eq]
  refine forall2_sum _ _ hall ?_
  rintro ge _ le hle ⟨⟨-, hcase, -⟩, -⟩
  obtain ⟨hl, hr⟩ := hD.valid p le (hperm.mem_iff.mp hle)
  have iff1 : ∀ d < (pr p).pm.numCells, (d = c ↔ gid p d = gid p c) := fun d hd =>
    ⟨fun h => by rw [h], fun h => hD.inj p d hd c hc h⟩
  have nb : ∀ d < (pr p).pm.numCells,
      neighbour (pr p).ls (fun i => q (gid p i)) c d = neighbour M.ls q (gid p c) (gid p d) := by
    intro d hd
    simp only [neighbour, MProc.ls, MProblem.ls, hD.x p d hd, hD.x p c hc, hD.y p d hd, hD.y p c hc]
  have key : (if le.left = c then φ (neighbour (pr p).ls (fun i => q (gid p i)) c le.right) else 0) +
      (if le.right = c then φ (neighbour (pr p).ls (fun i => q (gid p i)) c le.left) else 0) =
      (if ge.left = gid p c then φ (neighbour M.ls q (gid p c) ge.right) else 0) +
      (if ge.right = gid p c then φ (neighbour M.ls q (gid p c) ge.left) else 0) := by
    rw [nb _ hl, nb _ hr]
    simp only [iff1 _ hl, iff1 _ hr]
    rcases hcase with ⟨h1, h2, -, -⟩ | ⟨h1, h2, -, -⟩
    · rw [h1, h2]
    · rw [h1, h2, add_comm]
  exact key

/-- C85 (gradients of owned cells): a process computes for its own cells the gradients of the whole mesh,
for every solution. -/
theorem C85_owned_gradients (hD : MDivides M pr gid owner seen eowner) (q : ℕ → ℝ) (p : Fin n) {c : ℕ}
    (hc : c < (pr p).pm.numCells) (ho : (pr p).pm.owned c = true) :
    lsGradX (pr p).ls (fun i => q (gid p i)) c = lsGradX M.ls q (gid p c) ∧
    lsGradY (pr p).ls (fun i => q (gid p i)) c = lsGradY M.ls q (gid p c) := by
  have hS := fun φ => owned_nsum hD q p hc ho φ
  obtain ⟨a0, a1, a2⟩ := lsM_eq (pr p).ls (fun i => q (gid p i)) c
  obtain ⟨b0, b1, b2⟩ := lsM_eq M.ls q (gid p c)
  have hinv : lsInv (pr p).ls c = lsInv M.ls (gid p c) := by
    unfold lsInv lsDet
    rw [a0, a1, a2, b0, b1, b2, hS, hS, hS]
  obtain ⟨g1, g2⟩ := lsGrad_eq (pr p).ls (fun i => q (gid p i)) c
  obtain ⟨k1, k2⟩ := lsGrad_eq M.ls q (gid p c)
  rw [g1, g2, k1, k2, hinv, hS, hS]
  exact ⟨rfl, rfl⟩

theorem foldl_update_eq (ws : List (ℕ × ℝ)) (γ : ℕ) (v : ℝ) (g : ℕ → ℝ)
    (h : ∀ w ∈ ws, w.1 = γ → w.2 = v) (hex : (∃ w ∈ ws, w.1 = γ) ∨ g γ = v) :
    ws.foldl (fun (g : ℕ → ℝ) w => Function.update g w.1 w.2) g γ = v := by
  induction ws generalizing g with
  | nil =>
    rcases hex with ⟨w, hw, -⟩ | h
    · simp at hw
    · exact h
  | cons a ws ih =>
    rw [List.foldl_cons]
    apply ih _ fun w hw => h w (List.mem_cons_of_mem _ hw)
    by_cases ha : a.1 = γ
    · right
      rw [ha, Function.update_self]
      exact h a (by simp) ha
    · rcases hex with ⟨w, hw, hwγ⟩ | hg
      · rcases List.mem_cons.mp hw with rfl | hw
        · exact absurd hwγ ha
        · exact Or.inl ⟨w, hw, hwγ⟩
      · right
        rw [Function.update_of_ne (Ne.symm ha)]
        exact hg

/-- If the owners' values are those of a function of the cell, all processes receive the function, also for
ghost cells, whatever the processes had computed for them. -/
theorem communicated_eq (hD : MDivides M pr gid owner seen eowner) (v : Fin n → ℕ → ℝ) (V : ℕ → ℝ)
    (hv : ∀ p, ∀ c < (pr p).pm.numCells, (pr p).pm.owned c = true → v p c = V (gid p c)) (p : Fin n)
    {c : ℕ} (hc : c < (pr p).pm.numCells) : communicated pr gid v p c = V (gid p c) := by
  unfold communicated
  apply foldl_update_eq
  · intro w hw hwγ
    unfold gradWrites at hw
    simp only [List.mem_flatMap, List.mem_finRange, true_and, List.mem_map, List.mem_filter,
      List.mem_range] at hw
    obtain ⟨p', c', ⟨hc', ho'⟩, rfl⟩ := hw
    rw [← hwγ]
    exact hv p' c' hc' ho'
  · left
    obtain ⟨c', hc', hg⟩ := hD.cover (gid p c) (hD.lt p c hc)
    refine ⟨(gid p c, v (owner (gid p c)) c'), ?_, rfl⟩
    unfold gradWrites
    simp only [List.mem_flatMap, List.mem_finRange, true_and, List.mem_map, List.mem_filter,
      List.mem_range]
    exact ⟨owner (gid p c), c', ⟨hc', (hD.owned _ c' hc').mpr (by rw [hg])⟩, by rw [hg]⟩

/-- C85 (gradients of all cells): after the exchange every process has, for every one of its cells, owned or
ghost, the gradients of the whole mesh. -/
theorem C85_gradients (hD : MDivides M pr gid owner seen eowner) (U : ℕ → Cons) (p : Fin n) {c : ℕ}
    (hc : c < (pr p).pm.numCells) :
    let G := commGradients pr gid (fun p c => U (gid p c)) p
    let W := lsGradients M.ls (fieldOf U)
    (G.1.h c = W.1.h (gid p c) ∧ G.1.hu c = W.1.hu (gid p c) ∧ G.1.hv c = W.1.hv (gid p c)) ∧
    (G.2.h c = W.2.h (gid p c) ∧ G.2.hu c = W.2.hu (gid p c) ∧ G.2.hv c = W.2.hv (gid p c)) := by
  have A : ∀ q : ℕ → ℝ,
      communicated pr gid (fun p => lsGradX (pr p).ls fun i => q (gid p i)) p c = lsGradX M.ls q (gid p c) :=
    fun q => communicated_eq hD _ (lsGradX M.ls q)
      (fun p' c' hc' ho' => (C85_owned_gradients hD q p' hc' ho').1) p hc
  have B : ∀ q : ℕ → ℝ,
      communicated pr gid (fun p => lsGradY (pr p).ls fun i => q (gid p i)) p c = lsGradY M.ls q (gid p c) :=
    fun q => communicated_eq hD _ (lsGradY M.ls q)
      (fun p' c' hc' ho' => (C85_owned_gradients hD q p' hc' ho').2) p hc
  exact ⟨⟨A fun i => (U i).h, A fun i => (U i).hu, A fun i => (U i).hv⟩,
    ⟨B fun i => (U i).h, B fun i => (U i).hu, B fun i => (U i).hv⟩⟩

/-! ### States on the edges -/

/-- C85 (states): the process that owns an edge reconstructs on its two sides the states of the whole mesh,
in the order in which it sees the two cells. -/
theorem C85_states (hD : MDivides M pr gid owner seen eowner) (l : Limiter) (U : ℕ → Cons) (p : Fin n)
    {ge le : MEdge} (hle : le ∈ (pr p).edges) (hs : SeesM (gid p) ge le) :
    let r := reconstructEdge l (pr p).ls (fieldOf fun c => U (gid p c))
      (commGradients pr gid (fun p c => U (gid p c)) p) le
    ((gid p le.left = ge.left ∧ gid p le.right = ge.right ∧ le.sn = ge.sn ∧ le.cn = ge.cn) ∧
      (r.qL, r.qR) = M.states l U ge) ∨
    ((gid p le.left = ge.right ∧ gid p le.right = ge.left ∧ le.sn = -ge.sn ∧ le.cn = -ge.cn) ∧
      (r.qR, r.qL) = M.states l U ge) := by
  obtain ⟨hl, hr⟩ := hD.valid p le hle
  obtain ⟨⟨xl1, xl2, xl3⟩, yl1, yl2, yl3⟩ := C85_gradients hD U p hl
  obtain ⟨⟨xr1, xr2, xr3⟩, yr1, yr2, yr3⟩ := C85_gradients hD U p hr
  obtain ⟨-, hcase, hpts⟩ := hs
  have mx : (0.5 : ℝ) * (le.x0 + le.x1) = 0.5 * (ge.x0 + ge.x1) := by
    rcases hpts with ⟨h1, -, h2, -⟩ | ⟨h1, -, h2, -⟩ <;> rw [h1, h2]
    ring
  have my : (0.5 : ℝ) * (le.y0 + le.y1) = 0.5 * (ge.y0 + ge.y1) := by
    rcases hpts with ⟨-, h1, -, h2⟩ | ⟨-, h1, -, h2⟩ <;> rw [h1, h2]
    ring
  have ex : ∀ c < (pr p).pm.numCells, ∀ gx gy X Y : ℝ,
      extrapolation (pr p).ls c gx gy X Y = extrapolation M.ls (gid p c) gx gy X Y := by
    intro c hc gx gy X Y
    simp only [extrapolation, MProc.ls, MProblem.ls, hD.x p c hc, hD.y p c hc]
  have face : ∀ (q gx gy GX GY : ℕ → ℝ), gx le.left = GX (gid p le.left) → gx le.right = GX (gid p le.right) →
      gy le.left = GY (gid p le.left) → gy le.right = GY (gid p le.right) →
      ((gid p le.left = ge.left ∧ gid p le.right = ge.right) →
        faceOf l (pr p).ls (fun c => q (gid p c)) gx gy le = faceOf l M.ls q GX GY ge) ∧
      ((gid p le.left = ge.right ∧ gid p le.right = ge.left) →
        faceOf l (pr p).ls (fun c => q (gid p c)) gx gy le =
          ((faceOf l M.ls q GX GY ge).2, (faceOf l M.ls q GX GY ge).1)) := by
    intro q gx gy GX GY h1 h2 h3 h4
    constructor
    · rintro ⟨a, b⟩
      simp only [faceOf]
      rw [ex _ hl, ex _ hr, h1, h2, h3, h4, a, b, mx, my]
    · rintro ⟨a, b⟩
      simp only [faceOf]
      rw [ex _ hl, ex _ hr, h1, h2, h3, h4, a, b, mx, my, C49_orientation]
  have Fh := face (fun i => (U i).h) _ _ _ _ xl1 xr1 yl1 yr1
  have Fu := face (fun i => (U i).hu) _ _ _ _ xl2 xr2 yl2 yr2
  have Fv := face (fun i => (U i).hv) _ _ _ _ xl3 xr3 yl3 yr3
  rcases hcase with hc | hc
  · refine Or.inl ⟨hc, ?_⟩
    have e1 := Fh.1 ⟨hc.1, hc.2.1⟩
    have e2 := Fu.1 ⟨hc.1, hc.2.1⟩
    have e3 := Fv.1 ⟨hc.1, hc.2.1⟩
    simp only [MProblem.states, reconstructEdge, fieldOf] at *
    rw [e1, e2, e3]
  · refine Or.inr ⟨hc, ?_⟩
    have e1 := Fh.2 ⟨hc.1, hc.2.1⟩
    have e2 := Fu.2 ⟨hc.1, hc.2.1⟩
    have e3 := Fv.2 ⟨hc.1, hc.2.1⟩
    simp only [MProblem.states, reconstructEdge, fieldOf] at *
    rw [e1, e2, e3]

/-! ### Fluxes -/

theorem stateFlux_swap {P : FlowParams} (ceed : Bool) (a b : Cons) (sn cn : ℝ) (hg : ceed = true → 0 ≤ P.g) :
    stateFlux P ceed (b, a) (-sn) (-cn) = (stateFlux P ceed (a, b) sn cn).map Flux.opp := by
  unfold stateFlux
  cases ceed with
  | false =>
    simp only [Bool.false_eq_true, if_false]
    exact C37_used_antisymmetric _ _ _ _ _ _
  | true =>
    simp only [if_true]
    have h := facePairCeed_swap (P := P) false 0 0 a b sn cn (hg rfl)
    simp only [facePairCeed, Bool.false_eq_true, if_false] at h
    have h2 := congrArg (Option.map Prod.fst) h
    rw [Option.map_map, Option.map_map, Option.map_map] at h2
    rw [Option.map_map]
    exact h2

/-- what a local edge, with the states of `faceStates`, adds to the global cell `γ` -/
noncomputable def rTerm (P : FlowParams) (ceed : Bool) (pm : PMesh) (gid : ℕ → ℕ) (γ : ℕ) (k : Flux → ℝ)
    (e : REdge) : ℝ :=
  (if gid e.left = γ then k ((stateFlux P ceed (e.qL, e.qR) e.sn e.cn).getD Flux.zero) *
    (-e.len / pm.area e.left) else 0) +
  if gid e.right = γ then k ((stateFlux P ceed (e.qL, e.qR) e.sn e.cn).getD Flux.zero) *
    (e.len / pm.area e.right) else 0

theorem rTerm_sees (hD : MDivides M pr gid owner seen eowner) {P : FlowParams} {ceed : Bool}
    (hg : ceed = true → 0 ≤ P.g) (l : Limiter) (U : ℕ → Cons) (p : Fin n) (γ : ℕ) {k : Flux → ℝ}
    (hk : LinF k) {ge le : MEdge} (hle : le ∈ (pr p).edges) (hs : SeesM (gid p) ge le) :
    rTerm P ceed (pr p).pm (gid p) γ k (reconstructEdge l (pr p).ls (fieldOf fun c => U (gid p c))
      (commGradients pr gid (fun p c => U (gid p c)) p) le) = M.edgeTerm P ceed l U γ k ge := by
  obtain ⟨hl, hr⟩ := hD.valid p le hle
  have hlen := hs.1
  have hst := C85_states hD l U p hle hs
  simp only at hst
  generalize hrr : reconstructEdge l (pr p).ls (fieldOf fun c => U (gid p c))
      (commGradients pr gid (fun p c => U (gid p c)) p) le = r at hst
  have f1 : r.left = le.left := by rw [← hrr]; rfl
  have f2 : r.right = le.right := by rw [← hrr]; rfl
  have f3 : r.len = ge.len := by rw [← hrr]; exact hlen
  have f4 : r.sn = le.sn := by rw [← hrr]; rfl
  have f5 : r.cn = le.cn := by rw [← hrr]; rfl
  unfold rTerm MProblem.edgeTerm
  rw [f1, f2, f3, f4, f5, hD.area p _ hl, hD.area p _ hr]
  rcases hst with ⟨⟨h1, h2, h3, h4⟩, hst⟩ | ⟨⟨h1, h2, h3, h4⟩, hst⟩
  · rw [h1, h2, h3, h4, hst]
    congr 1
    · by_cases hx : ge.left = γ
      · rw [if_pos hx, if_pos hx, hx]
      · rw [if_neg hx, if_neg hx]
    · by_cases hx : ge.right = γ
      · rw [if_pos hx, if_pos hx, hx]
      · rw [if_neg hx, if_neg hx]
  · rw [h1, h2, h3, h4, ← hst]
    have hop : k ((stateFlux P ceed (r.qL, r.qR) (-ge.sn) (-ge.cn)).getD Flux.zero) =
        -k ((stateFlux P ceed (r.qR, r.qL) ge.sn ge.cn).getD Flux.zero) := by
      rw [stateFlux_swap ceed r.qR r.qL ge.sn ge.cn hg]
      cases stateFlux P ceed (r.qR, r.qL) ge.sn ge.cn with
      | none => simp [hk.zero]
      | some F => simp only [Option.map_some, Option.getD_some, hk.opp]
    rw [hop, add_comm]
    congr 1
    · by_cases hx : ge.left = γ
      · rw [if_pos hx, if_pos hx, hx]; ring
      · rw [if_neg hx, if_neg hx]
    · by_cases hx : ge.right = γ
      · rw [if_pos hx, if_pos hx, hx]; ring
      · rw [if_neg hx, if_neg hx]

theorem rTerm_sum (hD : MDivides M pr gid owner seen eowner) {P : FlowParams} {ceed : Bool}
    (hg : ceed = true → 0 ≤ P.g) (l : Limiter) (U : ℕ → Cons) (γ : ℕ) {k : Flux → ℝ} (hk : LinF k) :
    ∑ p, ((faceStates l pr gid (fun p c => U (gid p c)) p).map (rTerm P ceed (pr p).pm (gid p) γ k)).sum =
      M.interior P ceed l U γ k := by
  unfold MProblem.interior
  rw [← sum_filter_owner eowner]
  apply sum_congr rfl
  intro p _
  obtain ⟨L, hperm, hall⟩ := hD.edges p
  unfold faceStates
  rw [List.map_map]
  have hp2 : List.Perm (L.filter MEdge.owned) ((pr p).edges.filter MEdge.owned) := hperm.filter _
  rw [← (hp2.map _).sum_eq]
  have hf : List.Forall₂ (fun ge le => SeesM (gid p) ge le)
      (M.edges.filter fun e => eowner e = p) (L.filter MEdge.owned) := by
    have h1 : (M.edges.filter fun e => eowner e = p) =
        (M.edges.filter (seen p)).filter fun e => eowner e = p := by
      rw [List.filter_filter]
      apply List.filter_congr
      intro e he
      by_cases h : eowner e = p
      · simp [h, hD.sees p e he (Or.inr (Or.inr h))]
      · simp [h]
    rw [h1]
    clear h1 hp2
    generalize M.edges.filter (seen p) = G at hall
    clear hperm
    induction hall with
    | nil => exact List.Forall₂.nil
    | @cons a b l1 l2 hab _ ih =>
      rw [List.filter_cons, List.filter_cons]
      by_cases hb : b.owned = true
      · rw [if_pos hb, if_pos (by simpa using hab.2.mp hb)]
        exact List.Forall₂.cons hab.1 ih
      · rw [if_neg hb, if_neg (by simpa using fun h => hb (hab.2.mpr h))]
        exact ih
  refine forall2_sum _ _ hf ?_
  intro ge _ le hle hs
  exact rTerm_sees hD hg l U p γ hk (hperm.mem_iff.mp (List.mem_of_mem_filter hle)) hs

theorem faceStates_mem (hD : MDivides M pr gid owner seen eowner) (l : Limiter) (u : Fin n → ℕ → Cons)
    (p : Fin n) {e : REdge} (he : e ∈ faceStates l pr gid u p) :
    (e.left < (pr p).pm.numCells ∧ e.right < (pr p).pm.numCells) ∧ 0 ≤ e.qL.h ∧ 0 ≤ e.qR.h := by
  unfold faceStates at he
  rw [List.mem_map] at he
  obtain ⟨a, ha, rfl⟩ := he
  exact ⟨hD.valid p a (List.mem_of_mem_filter ha), le_max_left _ _, le_max_left _ _⟩

theorem entryOf_zero (N : ℕ) (gid : ℕ → ℕ) (γ : ℕ) {k : Flux → ℝ} (hk : LinF k) :
    entryOf N gid γ k (fun _ => Flux.zero) = 0 := by
  unfold entryOf
  apply sum_eq_zero
  intro i _
  rw [hk.zero]
  simp

/-- C85 (PETSc): for every division of the mesh among processes, order and orientation of edges, and owner of
each edge, the interior fluxes that `DMLocalToGlobal` adds up for a cell are those of the whole mesh. -/
theorem C85_interior (hD : MDivides M pr gid owner seen eowner) (P : FlowParams) (l : Limiter) (U : ℕ → Cons)
    (f : Fin n → ℕ → Flux) (h : ∀ p, interior2R P l pr gid (fun p c => U (gid p c)) p = some (f p))
    (γ : ℕ) {k : Flux → ℝ} (hk : LinF k) :
    localToGlobalAdd (fun p => (pr p).pm.numCells) gid f k γ = M.interior P false l U γ k := by
  have hsum : localToGlobalAdd (fun p => (pr p).pm.numCells) gid f k γ =
      ∑ p, entryOf (pr p).pm.numCells (gid p) γ k (f p) := rfl
  rw [hsum, ← rTerm_sum hD (P := P) (ceed := false) (by simp) l U γ hk]
  apply sum_congr rfl
  intro p _
  have hx := h p
  unfold interior2R applyInterior2R at hx
  have s := foldlM_sum (interiorEdge2R P (pr p).pm.area) (entryOf (pr p).pm.numCells (gid p) γ k)
    (rTerm P false (pr p).pm (gid p) γ k) _ _ _ (by
      intro f e f' he hs
      obtain ⟨⟨hl, hr⟩, h0, h1⟩ := faceStates_mem hD l _ p he
      unfold interiorEdge2R at hs
      simp only [Option.map_eq_some_iff] at hs
      obtain ⟨F, hF, rfl⟩ := hs
      have hF' : stateFlux P false (e.qL, e.qR) e.sn e.cn = some F := by
        unfold stateFlux
        simp only [Bool.false_eq_true, if_false]
        unfold rStates at hF
        rw [max_eq_right h0, max_eq_right h1] at hF
        exact hF
      rw [entryOf_addAt _ γ hk _ hr, entryOf_addAt _ γ hk _ hl, hk.smul, hk.smul, add_assoc]
      simp only [rTerm, hF', Option.getD_some]) hx
  rw [s, entryOf_zero _ _ _ hk, zero_add]

/-- C85 (definedness): the interior fluxes are numbers for every solution, with and without limiter, whatever
the gradients: the states on the edges have non-negative depths. -/
theorem C85_defined {P : FlowParams} (ht : 0 < P.tinyH) (l : Limiter) (pr : Fin n → MProc)
    (gid : Fin n → ℕ → ℕ) (u : Fin n → ℕ → Cons) (p : Fin n) : (interior2R P l pr gid u p).isSome := by
  unfold interior2R applyInterior2R
  apply foldlM_isSome
  intro f e _
  unfold interiorEdge2R
  apply isSome_map'
  unfold rStates
  exact C39_interior_defined _ _ _ _ _ _ ht (le_max_left _ _) (le_max_left _ _)

/-- C85 (CEED), partial: if on every process the owned cells come first in the local numbering, the flux
divergence that `DMLocalToGlobal` adds up for a cell is the one of the whole mesh. Missing: numberings in
which a ghost cell precedes an owned cell, see `C85_ceed_numbering_violated`. -/
theorem C85_ceed_partial (hD : MDivides M pr gid owner seen eowner) {bowner : BEdge → Fin n}
    (hb : ∀ p, List.Perm ((pr p).pm.boundary.map fun e => ({ e with cell := gid p e.cell } : BEdge))
      (M.Q.bedges.filter fun b => bowner b = p))
    (hbv : ∀ p, ∀ e ∈ (pr p).pm.boundary, e.cell < (pr p).pm.numCells)
    (hf : ∀ p, OwnedFirst (pr p).pm) {P : FlowParams} (hg : 0 ≤ P.g) (l : Limiter) (U : ℕ → Cons)
    (f : Fin n → ℕ → Flux)
    (h : ∀ p, ceedDivergence2R P l pr gid (fun p c => U (gid p c)) p = some (f p)) (γ : ℕ) {k : Flux → ℝ}
    (hk : LinF k) :
    localToGlobalAdd (fun p => (pr p).pm.numCells) gid f k γ = M.divCeed P l U γ k := by
  have hlocal : ∀ p, entryOf (pr p).pm.numCells (gid p) γ k (f p) =
      ((faceStates l pr gid (fun p c => U (gid p c)) p).map (rTerm P true (pr p).pm (gid p) γ k)).sum +
      ((pr p).pm.boundary.map fun e => if gid p e.cell = γ then
        k (bndFluxCeed P (fun c => U (gid p c)) e) * (-e.len / (pr p).pm.area e.cell) else 0).sum := by
    intro p
    have hx := h p
    unfold ceedDivergence2R at hx
    rw [Option.bind_eq_some_iff] at hx
    obtain ⟨f1, h1, h2⟩ := hx
    have s1 := foldlM_sum (ceedEdge2R P (pr p).pm) (entryOf (pr p).pm.numCells (gid p) γ k)
      (rTerm P true (pr p).pm (gid p) γ k) _ _ _ (by
        intro f e f' he hs
        obtain ⟨⟨hl, hr⟩, h0, h1⟩ := faceStates_mem hD l _ p he
        unfold ceedEdge2R at hs
        simp only [Option.map_eq_some_iff] at hs
        obtain ⟨F, hF, rfl⟩ := hs
        have hF' : stateFlux P true (e.qL, e.qR) e.sn e.cn = some F.1 := by
          unfold stateFlux
          simp only [if_true]
          rw [max_eq_right h0, max_eq_right h1] at hF
          rw [show (⟨e.qL.h, e.qL.hu, e.qL.hv⟩ : Cons) = e.qL from rfl,
            show (⟨e.qR.h, e.qR.hu, e.qR.hv⟩ : Cons) = e.qR from rfl] at hF
          rw [hF]
          rfl
        rw [hf p _ hl, hf p _ hr, entryOf_addAt _ γ hk _ hr, entryOf_addAt _ γ hk _ hl, hk.smul, hk.smul,
          add_assoc]
        simp only [rTerm, hF', Option.getD_some]) h1
    have s2 := foldlM_sum (ceedBEdge P (pr p).pm fun c => U (gid p c))
      (entryOf (pr p).pm.numCells (gid p) γ k) (fun e => if gid p e.cell = γ then
        k (bndFluxCeed P (fun c => U (gid p c)) e) * (-e.len / (pr p).pm.area e.cell) else 0)
      (pr p).pm.boundary _ _ (by
        intro f e f' he hs
        have hc := hbv p e he
        unfold ceedBEdge at hs
        simp only [Option.map_eq_some_iff] at hs
        obtain ⟨F, hF, rfl⟩ := hs
        rw [hf p _ hc, entryOf_addAt _ γ hk _ hc, hk.smul]
        simp only [bndFluxCeed, hF, Option.map_some, Option.getD_some]) h2
    rw [s2, s1, entryOf_zero _ _ _ hk, zero_add]
  have hsum : localToGlobalAdd (fun p => (pr p).pm.numCells) gid f k γ =
      ∑ p, entryOf (pr p).pm.numCells (gid p) γ k (f p) := rfl
  rw [hsum, sum_congr rfl fun p _ => hlocal p, sum_add_distrib, rTerm_sum hD (fun _ => hg) l U γ hk]
  unfold MProblem.divCeed
  congr 1
  rw [← sum_filter_owner bowner]
  apply sum_congr rfl
  intro p _
  rw [← ((hb p).map _).sum_eq, List.map_map]
  congr 1
  apply List.map_congr_left
  intro e he
  have hc := hbv p e he
  simp only [Function.comp, hD.area p _ hc]
  by_cases hx : gid p e.cell = γ
  · rw [if_pos hx, if_pos hx, ← hx]; rfl
  · rw [if_neg hx, if_neg hx]

end Gradients

/-! ### The right-hand side and runs (PETSc) -/

/-- The right-hand side of cell `γ` in terms of the undivided problem alone. -/
noncomputable def MProblem.rhs (M : MProblem) (P : FlowParams) (l : Limiter) (m : FrictionMethod) (dt : ℝ)
    (U : ℕ → Cons) (γ : ℕ) : Option Flux :=
  (friction P m dt (M.Q.mann γ) (U γ) (M.div P l U γ Flux.x) (M.div P l U γ Flux.y)
      (bedTerm P true (M.Q.dzdx γ) (M.Q.dzdy γ) (U γ).h).1
      (bedTerm P true (M.Q.dzdx γ) (M.Q.dzdy γ) (U γ).h).2).map fun t =>
    ⟨M.div P l U γ Flux.m + (M.Q.src γ).m,
     M.div P l U γ Flux.x + (-(bedTerm P true (M.Q.dzdx γ) (M.Q.dzdy γ) (U γ).h).1 - t.1 + (M.Q.src γ).x),
     M.div P l U γ Flux.y + (-(bedTerm P true (M.Q.dzdx γ) (M.Q.dzdy γ) (U γ).h).2 - t.2 + (M.Q.src γ).y)⟩

/-- A step of the explicit Euler method with second-order reconstruction on several processes. -/
def EulerStep2R {n : ℕ} (P : FlowParams) (l : Limiter) (m : FrictionMethod) (pr : Fin n → MProc)
    (gid : Fin n → ℕ → ℕ) (dt : ℝ) (src : Fin n → ℕ → Flux) (mann : Fin n → ℕ → ℝ) (U U' : ℕ → Cons) :
    Prop :=
  ∃ f1 : Fin n → ℕ → Flux, (∀ p, interior2R P l pr gid (fun p c => U (gid p c)) p = some (f1 p)) ∧
  ∀ p, ∃ f, rhs2R P m pr gid dt src mann (fun p c => U (gid p c)) f1 p = some f ∧
    ∀ c < (pr p).pm.numCells, (pr p).pm.owned c = true →
      (U' (gid p c)).h = (U (gid p c)).h + dt * (f ((pr p).pm.l2o c)).m ∧
      (U' (gid p c)).hu = (U (gid p c)).hu + dt * (f ((pr p).pm.l2o c)).x ∧
      (U' (gid p c)).hv = (U (gid p c)).hv + dt * (f ((pr p).pm.l2o c)).y

/-- A step of the undivided problem: all boundary fluxes and sources are numbers, and every cell changes by
`dt` times its right-hand side. -/
def MProblem.Step (M : MProblem) (P : FlowParams) (l : Limiter) (m : FrictionMethod) (dt : ℝ)
    (U U' : ℕ → Cons) : Prop :=
  (∀ e ∈ M.Q.bedges, bndDefined P U e) ∧ ∀ γ < M.Q.N, ∃ F, M.rhs P l m dt U γ = some F ∧
    (U' γ).h = (U γ).h + dt * F.m ∧ (U' γ).hu = (U γ).hu + dt * F.x ∧ (U' γ).hv = (U γ).hv + dt * F.y

section Runs

variable {M : MProblem} {n : ℕ} {pr : Fin n → MProc} {gid : Fin n → ℕ → ℕ} {owner : ℕ → Fin n}
  {seen : Fin n → MEdge → Bool} {eowner : MEdge → Fin n} {src : Fin n → ℕ → Flux} {mann : Fin n → ℕ → ℝ}

theorem globalPart_owned (f : Fin n → ℕ → Flux) (p : Fin n) (hinj : OwnedInj (pr p).pm) {c : ℕ}
    (hc : c < (pr p).pm.numCells) (ho : (pr p).pm.owned c = true) :
    globalPart pr gid f p ((pr p).pm.l2o c) = addedUp pr gid f (gid p c) := by
  unfold globalPart
  cases hF : (List.range (pr p).pm.numCells).find? fun c' =>
      (pr p).pm.owned c' && ((pr p).pm.l2o c' == (pr p).pm.l2o c) with
  | none =>
    rw [List.find?_eq_none] at hF
    have := hF c (List.mem_range.mpr hc)
    simp [ho] at this
  | some c' =>
    have h1 := List.find?_some hF
    have h2 := List.mem_of_find?_eq_some hF
    rw [List.mem_range] at h2
    simp only [Bool.and_eq_true, beq_iff_eq] at h1
    have : c' = c := hinj c' h2 c hc h1.1 ho h1.2
    rw [this]

theorem div2R_cell (hD : MDivides M pr gid owner seen eowner)
    (hB : Divides M.Q (fun p => (pr p).pm) gid owner src mann) (hv : ∀ p, EdgesValid (pr p).pm)
    (hinj : ∀ p, OwnedInj (pr p).pm) {P : FlowParams} {l : Limiter} (U : ℕ → Cons)
    {f1 : Fin n → ℕ → Flux} (h1 : ∀ p, interior2R P l pr gid (fun p c => U (gid p c)) p = some (f1 p))
    (p : Fin n) {fd : ℕ → Flux}
    (h2 : applyBoundary P (pr p).pm (fun c => U (gid p c)) (globalPart pr gid f1 p) = some fd) {c : ℕ}
    (hc : c < (pr p).pm.numCells) (ho : (pr p).pm.owned c = true) :
    fd ((pr p).pm.l2o c) = ⟨M.div P l U (gid p c) Flux.m, M.div P l U (gid p c) Flux.x,
      M.div P l U (gid p c) Flux.y⟩ := by
  have hown := (hD.owned p c hc).mp ho
  have key : ∀ k, LinF k → k (addedUp pr gid f1 (gid p c)) = M.interior P false l U (gid p c) k →
      k (fd ((pr p).pm.l2o c)) = M.div P l U (gid p c) k := by
    intro k hk hI
    have s2 := foldlM_sum (boundaryEdge P (pr p).pm fun c => U (gid p c))
      (fun f => k (f ((pr p).pm.l2o c))) (bndCell P (pr p).pm (fun c => U (gid p c)) c k)
      (pr p).pm.boundary _ _
      (fun f e f' he hs => boundaryEdge_cell hk (hinj p) (hv p) _ hc ho f f' e he hs) h2
    rw [s2, globalPart_owned f1 p (hinj p) hc ho, hI]
    unfold MProblem.div
    rw [bnd_sum_eq hB hv U p hc ho hown k]
  have im := C85_interior hD P l U f1 h1 (gid p c) linF_m
  have ix := C85_interior hD P l U f1 h1 (gid p c) linF_x
  have iy := C85_interior hD P l U f1 h1 (gid p c) linF_y
  rw [← key Flux.m linF_m im, ← key Flux.x linF_x ix, ← key Flux.y linF_y iy]

/-- C85 (right-hand side): whatever the division, the right-hand side computed for an owned cell is the one of
the undivided problem. -/
theorem C85_rhs (hD : MDivides M pr gid owner seen eowner)
    (hB : Divides M.Q (fun p => (pr p).pm) gid owner src mann) (hv : ∀ p, EdgesValid (pr p).pm)
    (hinj : ∀ p, OwnedInj (pr p).pm) {P : FlowParams} {l : Limiter} {m : FrictionMethod} {dt : ℝ}
    (U : ℕ → Cons) {f1 : Fin n → ℕ → Flux}
    (h1 : ∀ p, interior2R P l pr gid (fun p c => U (gid p c)) p = some (f1 p)) (p : Fin n) {f : ℕ → Flux}
    (h : rhs2R P m pr gid dt src mann (fun p c => U (gid p c)) f1 p = some f) {c : ℕ}
    (hc : c < (pr p).pm.numCells) (ho : (pr p).pm.owned c = true) :
    M.rhs P l m dt U (gid p c) = some (f ((pr p).pm.l2o c)) := by
  unfold rhs2R at h
  rw [Option.bind_eq_some_iff] at h
  obtain ⟨fd, h2, h3⟩ := h
  have hdiv := div2R_cell hD hB hv hinj U h1 p h2 hc ho
  have hs := (sourceFold_cell (hinj p) _ hc ho (List.range (pr p).pm.numCells) List.nodup_range
    (fun c' hc' => List.mem_range.mp hc') fd f h3).2 (List.mem_range.mpr hc)
  rw [hB.src p c hc ho, hB.mann p c hc ho, hB.dzdx p c hc, hB.dzdy p c hc, hdiv] at hs
  rw [← hs]
  rfl

theorem euler2R_iff (hD : MDivides M pr gid owner seen eowner)
    (hB : Divides M.Q (fun p => (pr p).pm) gid owner src mann) (hv : ∀ p, EdgesValid (pr p).pm)
    (hinj : ∀ p, OwnedInj (pr p).pm) {P : FlowParams} (ht : 0 < P.tinyH) {l : Limiter}
    {m : FrictionMethod} {dt : ℝ} (U U' : ℕ → Cons) :
    EulerStep2R P l m pr gid dt src mann U U' ↔ M.Step P l m dt U U' := by
  constructor
  · rintro ⟨f1, h1, h⟩
    constructor
    · intro b hb
      obtain ⟨f, hf, -⟩ := h (owner b.cell)
      unfold rhs2R at hf
      rw [Option.bind_eq_some_iff] at hf
      obtain ⟨fd, h2, -⟩ := hf
      have hdef := (boundary_isSome_iff P (pr (owner b.cell)).pm _ _).mp (by rw [h2]; rfl)
      have hmem : b ∈ (M.Q.bedges.filter fun b' => owner b'.cell = owner b.cell) :=
        List.mem_filter.mpr ⟨hb, by simp⟩
      generalize owner b.cell = p at *
      obtain ⟨e, he, rfl⟩ := List.mem_map.mp ((hB.bedges p).mem_iff.mpr hmem)
      obtain ⟨he1, he2⟩ := List.mem_filter.mp he
      exact hdef e he1 he2
    · intro γ hγ
      obtain ⟨c, hc, hg⟩ := hD.cover γ hγ
      have ho : (pr (owner γ)).pm.owned c = true := (hD.owned _ c hc).mpr (by rw [hg])
      obtain ⟨f, hf, hU⟩ := h (owner γ)
      have := C85_rhs hD hB hv hinj U h1 (owner γ) hf hc ho
      rw [hg] at this
      have hx := hU c hc ho
      rw [hg] at hx
      exact ⟨_, this, hx⟩
  · rintro ⟨hb, hr⟩
    have hdef := fun p => Option.isSome_iff_exists.mp
      (C85_defined ht l pr gid (fun p c => U (gid p c)) p)
    choose f1 h1 using hdef
    refine ⟨f1, h1, ?_⟩
    intro p
    have hB2 : (applyBoundary P (pr p).pm (fun c => U (gid p c)) (globalPart pr gid f1 p)).isSome := by
      rw [boundary_isSome_iff]
      intro e he ho
      have hmem : ({ e with cell := gid p e.cell } : BEdge) ∈
          (((pr p).pm.boundary.filter fun e => (pr p).pm.owned e.cell)).map
            fun e => ({ e with cell := gid p e.cell } : BEdge) :=
        List.mem_map.mpr ⟨e, List.mem_filter.mpr ⟨he, ho⟩, rfl⟩
      exact hb _ (List.mem_of_mem_filter ((hB.bedges p).mem_iff.mp hmem))
    obtain ⟨fd, h2⟩ := Option.isSome_iff_exists.mp hB2
    have hS : (rhs2R P m pr gid dt src mann (fun p c => U (gid p c)) f1 p).isSome := by
      unfold rhs2R
      rw [h2, Option.bind_some, source_isSome_iff]
      intro c hc ho
      obtain ⟨F, hF, -⟩ := hr (gid p c) (hD.lt p c hc)
      have hs : (M.rhs P l m dt U (gid p c)).isSome := by rw [hF]; rfl
      unfold MProblem.rhs at hs
      rw [Option.isSome_map] at hs
      have hdiv := div2R_cell hD hB hv hinj U h1 p h2 hc ho
      rw [hdiv, hB.mann p c hc ho, hB.dzdx p c hc, hB.dzdy p c hc]
      exact hs
    obtain ⟨f, hf⟩ := Option.isSome_iff_exists.mp hS
    refine ⟨f, hf, ?_⟩
    intro c hc ho
    obtain ⟨F, hF, hU⟩ := hr (gid p c) (hD.lt p c hc)
    rw [C85_rhs hD hB hv hinj U h1 p hf hc ho] at hF
    simp only [Option.some.injEq] at hF
    rw [hF]
    exact hU

end Runs

/-- C85 (runs): a sequence of states is a second-order run on one division of the mesh among processes if and
only if it is one on another. Sources, roughness and Dirichlet values may change from step to step. -/
theorem C85_run {M : ℕ → MProblem} {n n' : ℕ} {pr : ℕ → Fin n → MProc} {gid : Fin n → ℕ → ℕ}
    {owner : ℕ → Fin n} {seen : Fin n → MEdge → Bool} {eowner : MEdge → Fin n} {src : ℕ → Fin n → ℕ → Flux}
    {mann : ℕ → Fin n → ℕ → ℝ} {pr' : ℕ → Fin n' → MProc} {gid' : Fin n' → ℕ → ℕ} {owner' : ℕ → Fin n'}
    {seen' : Fin n' → MEdge → Bool} {eowner' : MEdge → Fin n'} {src' : ℕ → Fin n' → ℕ → Flux}
    {mann' : ℕ → Fin n' → ℕ → ℝ}
    (hD : ∀ i, MDivides (M i) (pr i) gid owner seen eowner)
    (hB : ∀ i, Divides (M i).Q (fun p => (pr i p).pm) gid owner (src i) (mann i))
    (hv : ∀ i p, EdgesValid (pr i p).pm) (hinj : ∀ i p, OwnedInj (pr i p).pm)
    (hD' : ∀ i, MDivides (M i) (pr' i) gid' owner' seen' eowner')
    (hB' : ∀ i, Divides (M i).Q (fun p => (pr' i p).pm) gid' owner' (src' i) (mann' i))
    (hv' : ∀ i p, EdgesValid (pr' i p).pm) (hinj' : ∀ i p, OwnedInj (pr' i p).pm)
    {P : FlowParams} (ht : 0 < P.tinyH) {l : Limiter} {m : FrictionMethod} (dt : ℕ → ℝ) (U : ℕ → ℕ → Cons)
    (K : ℕ) :
    (∀ i < K, EulerStep2R P l m (pr i) gid (dt i) (src i) (mann i) (U i) (U (i + 1))) ↔
      ∀ i < K, EulerStep2R P l m (pr' i) gid' (dt i) (src' i) (mann' i) (U i) (U (i + 1)) := by
  apply forall_congr'
  intro i
  rw [euler2R_iff (hD i) (hB i) (hv i) (hinj i) ht, euler2R_iff (hD' i) (hB' i) (hv' i) (hinj' i) ht]

/-! ### Volume -/

theorem sum_swap_list {α : Type} (L : List α) (N : ℕ) (A : ℕ → ℝ) (t : ℕ → α → ℝ) :
    ∑ γ ∈ range N, A γ * (L.map (t γ)).sum = (L.map fun e => ∑ γ ∈ range N, A γ * t γ e).sum := by
  induction L with
  | nil => simp
  | cons a L ih =>
    simp only [List.map_cons, List.sum_cons, mul_add, sum_add_distrib, ih]

/-- the water volume of the mesh -/
noncomputable def MProblem.volume (M : MProblem) (U : ℕ → Cons) : ℝ :=
  ∑ γ ∈ range M.Q.N, M.Q.area γ * (U γ).h

/-- water that leaves through the boundary edges, per unit time -/
noncomputable def MProblem.outflow (M : MProblem) (P : FlowParams) (U : ℕ → Cons) : ℝ :=
  (M.Q.bedges.map fun e => e.len * (bndFlux P U e).m).sum

/-- water that the sources bring, per unit time -/
noncomputable def MProblem.inflow (M : MProblem) : ℝ := ∑ γ ∈ range M.Q.N, M.Q.area γ * (M.Q.src γ).m

theorem step_volume {M : MProblem} {P : FlowParams} {l : Limiter} {m : FrictionMethod} {dt : ℝ}
    {U U' : ℕ → Cons} (hc : ∀ e ∈ M.edges, e.left < M.Q.N ∧ e.right < M.Q.N)
    (hb : ∀ e ∈ M.Q.bedges, e.cell < M.Q.N) (hA : ∀ γ < M.Q.N, M.Q.area γ ≠ 0)
    (h : M.Step P l m dt U U') :
    M.volume U' = M.volume U + dt * M.inflow - dt * M.outflow P U := by
  have h1 : ∀ γ ∈ range M.Q.N, M.Q.area γ * (U' γ).h = M.Q.area γ * (U γ).h +
      dt * (M.Q.area γ * (M.edges.map (M.edgeTerm P false l U γ Flux.m)).sum) +
      dt * (M.Q.area γ * (M.Q.bedges.map (M.Q.bndTerm P U γ Flux.m)).sum) +
      dt * (M.Q.area γ * (M.Q.src γ).m) := by
    intro γ hγ
    obtain ⟨F, hF, hU, -⟩ := h.2 γ (mem_range.mp hγ)
    unfold MProblem.rhs at hF
    simp only [Option.map_eq_some_iff] at hF
    obtain ⟨t, -, rfl⟩ := hF
    rw [hU]
    simp only [MProblem.div, MProblem.interior]
    ring
  unfold MProblem.volume MProblem.inflow MProblem.outflow
  rw [sum_congr rfl h1, sum_add_distrib, sum_add_distrib, sum_add_distrib, ← mul_sum, ← mul_sum, ← mul_sum,
    sum_swap_list, sum_swap_list]
  have z1 : (M.edges.map fun e => ∑ γ ∈ range M.Q.N, M.Q.area γ * M.edgeTerm P false l U γ Flux.m e).sum =
      0 := by
    apply List.sum_eq_zero
    intro v hv
    obtain ⟨e, he, rfl⟩ := List.mem_map.mp hv
    obtain ⟨hl, hr⟩ := hc e he
    have : ∀ γ ∈ range M.Q.N, M.Q.area γ * M.edgeTerm P false l U γ Flux.m e =
        (if e.left = γ then ((stateFlux P false (M.states l U e) e.sn e.cn).getD Flux.zero).m * (-e.len)
          else 0) +
        if e.right = γ then ((stateFlux P false (M.states l U e) e.sn e.cn).getD Flux.zero).m * e.len
          else 0 := by
      intro γ hγ
      have hne := hA γ (mem_range.mp hγ)
      unfold MProblem.edgeTerm
      by_cases a : e.left = γ <;> by_cases b : e.right = γ <;> simp only [a, b, if_true, if_false] <;>
        field_simp <;> ring
    rw [sum_congr rfl this, sum_add_distrib, sum_ite_eq, sum_ite_eq, if_pos (mem_range.mpr hl),
      if_pos (mem_range.mpr hr)]
    ring
  have z2 : (M.Q.bedges.map fun e => ∑ γ ∈ range M.Q.N, M.Q.area γ * M.Q.bndTerm P U γ Flux.m e).sum =
      -(M.Q.bedges.map fun e => e.len * (bndFlux P U e).m).sum := by
    rw [List.sum_neg, List.map_map]
    congr 1
    apply List.map_congr_left
    intro e he
    have : ∀ γ ∈ range M.Q.N, M.Q.area γ * M.Q.bndTerm P U γ Flux.m e =
        if e.cell = γ then (bndFlux P U e).m * (-e.len) else 0 := by
      intro γ hγ
      have hne := hA γ (mem_range.mp hγ)
      unfold GProblem.bndTerm
      by_cases a : e.cell = γ
      · simp only [a, if_true]
        field_simp
      · simp only [a, if_false, mul_zero]
    rw [sum_congr rfl this, sum_ite_eq, if_pos (mem_range.mpr (hb e he))]
    simp only [Function.comp]
    ring
  rw [z1, z2]
  ring

/-- C85 (volume): over any number of second-order steps on any number of processes, the volume changes by
what the sources bring and the boundaries let out. -/
theorem C85_volume {M : ℕ → MProblem} {n : ℕ} {pr : ℕ → Fin n → MProc} {gid : Fin n → ℕ → ℕ}
    {owner : ℕ → Fin n} {seen : Fin n → MEdge → Bool} {eowner : MEdge → Fin n} {src : ℕ → Fin n → ℕ → Flux}
    {mann : ℕ → Fin n → ℕ → ℝ} (hD : ∀ i, MDivides (M i) (pr i) gid owner seen eowner)
    (hB : ∀ i, Divides (M i).Q (fun p => (pr i p).pm) gid owner (src i) (mann i))
    (hv : ∀ i p, EdgesValid (pr i p).pm) (hinj : ∀ i p, OwnedInj (pr i p).pm)
    (hc : ∀ i, ∀ e ∈ (M i).edges, e.left < (M i).Q.N ∧ e.right < (M i).Q.N)
    (hb : ∀ i, ∀ e ∈ (M i).Q.bedges, e.cell < (M i).Q.N) (hA : ∀ i, ∀ γ < (M i).Q.N, (M i).Q.area γ ≠ 0)
    (hN : ∀ i, (M i).Q.N = (M 0).Q.N ∧ (M i).Q.area = (M 0).Q.area) {P : FlowParams} (ht : 0 < P.tinyH)
    {l : Limiter} {m : FrictionMethod} (dt : ℕ → ℝ) (U : ℕ → ℕ → Cons) (K : ℕ)
    (h : ∀ i < K, EulerStep2R P l m (pr i) gid (dt i) (src i) (mann i) (U i) (U (i + 1))) :
    (M 0).volume (U K) = (M 0).volume (U 0) + ∑ i ∈ range K, dt i * (M i).inflow -
      ∑ i ∈ range K, dt i * (M i).outflow P (U i) := by
  induction K with
  | zero => simp
  | succ K ih =>
    have hs := step_volume (hc K) (hb K) (hA K)
      ((euler2R_iff (hD K) (hB K) (hv K) (hinj K) ht (U K) (U (K + 1))).mp (h K (Nat.lt_succ_self K)))
    have hvol : ∀ V, (M K).volume V = (M 0).volume V := fun V => by
      unfold MProblem.volume
      rw [(hN K).1, (hN K).2]
    rw [hvol, hvol] at hs
    rw [hs, ih fun i hi => h i (Nat.lt_succ_of_lt hi), sum_range_succ, sum_range_succ]
    ring

/-! ### Where second-order runs are first order -/

theorem limitSlope_zero (l : Limiter) (d : ℝ) : limitSlope l 0 d = 0 := by
  cases l with
  | none => rfl
  | minmod => unfold limitSlope minmod; simp
  | vanLeer => unfold limitSlope vanLeer; simp

/-- an edge of a second-order problem as an edge of a first-order problem -/
def MEdge.plain (e : MEdge) : GEdge := ⟨e.left, e.right, e.len, e.sn, e.cn⟩

/-- C85 (first order): on an edge whose two cells have zero gradients, the states are the values of the cells,
and the edge contributes to each cell what it contributes in a first-order run. -/
theorem C85_first_order (M : MProblem) (P : FlowParams) (l : Limiter) (U : ℕ → Cons) (e : MEdge)
    (hU : 0 ≤ (U e.left).h ∧ 0 ≤ (U e.right).h)
    (hg : ∀ q : ℕ → ℝ, (lsGradX M.ls q e.left = 0 ∧ lsGradY M.ls q e.left = 0) ∧
      (lsGradX M.ls q e.right = 0 ∧ lsGradY M.ls q e.right = 0)) :
    M.states l U e = (U e.left, U e.right) ∧
    ∀ γ k, M.edgeTerm P false l U γ k e = M.Q.edgeTerm P false U γ k e.plain := by
  have hs : M.states l U e = (U e.left, U e.right) := by
    have hf : ∀ q : ℕ → ℝ, faceOf l M.ls q (lsGradX M.ls q) (lsGradY M.ls q) e = (q e.left, q e.right) := by
      intro q
      obtain ⟨⟨a, b⟩, c, d⟩ := hg q
      unfold faceOf extrapolation faceValues
      rw [a, b, c, d]
      simp [limitSlope_zero]
    have h1 := hf fun i => (U i).h
    have h2 := hf fun i => (U i).hu
    have h3 := hf fun i => (U i).hv
    simp only [MProblem.states, reconstructEdge, fieldOf, lsGradients] at *
    rw [h1, h2, h3]
    simp only [max_eq_right hU.1, max_eq_right hU.2]
  refine ⟨hs, ?_⟩
  intro γ k
  unfold MProblem.edgeTerm GProblem.edgeTerm GProblem.pair facePair stateFlux MEdge.plain
  rw [hs]
  simp only [Bool.false_eq_true, if_false]
  cases usedFlux P.g P.tinyH (velocities P.tinyH P.hAnuga (U e.left))
    (velocities P.tinyH P.hAnuga (U e.right)) e.sn e.cn <;> rfl

/-- The gradients vanish if all centroids lie on a line with direction `(a, b)`. -/
theorem strip_gradients (m : LSMesh) {a b : ℝ} (hab : a ≠ 0 ∨ b ≠ 0)
    (hline : ∀ c d, b * (m.x d - m.x c) = a * (m.y d - m.y c)) (q : ℕ → ℝ) (c : ℕ) :
    lsGradX m q c = 0 ∧ lsGradY m q c = 0 := by
  have hdet : lsDet m c = 0 := by
    obtain ⟨h0, h1, h2⟩ := lsM_eq m q c
    have hb1 : b * lsM00 m c = a * lsM01 m c ∧ b * lsM01 m c = a * lsM11 m c := by
      rw [h0, h1, h2]
      have pull : ∀ (r : ℝ) (φ : Neighbour → ℝ), r * nsum (neighbours m q c) φ =
          (m.edges.map fun e => (if e.1 = c then r * φ (neighbour m q c e.2) else 0) +
            (if e.2 = c then r * φ (neighbour m q c e.1) else 0)).sum := by
        intro r φ
        rw [nsum_neighbours, ← List.sum_map_mul_left]
        congr 1
        apply List.map_congr_left
        intro e _
        by_cases h1 : e.1 = c <;> by_cases h2 : e.2 = c <;> simp [h1, h2, mul_add]
      have key : ∀ d, b * (neighbour m q c d).dx = a * (neighbour m q c d).dy := fun d => hline c d
      constructor
      · rw [pull, pull]
        congr 1
        apply List.map_congr_left
        intro e _
        have k1 := key e.1
        have k2 := key e.2
        congr 1
        · by_cases h : e.1 = c
          · rw [if_pos h, if_pos h]
            linear_combination (neighbour m q c e.2).w * (neighbour m q c e.2).dx * k2
          · rw [if_neg h, if_neg h]
        · by_cases h : e.2 = c
          · rw [if_pos h, if_pos h]
            linear_combination (neighbour m q c e.1).w * (neighbour m q c e.1).dx * k1
          · rw [if_neg h, if_neg h]
      · rw [pull, pull]
        congr 1
        apply List.map_congr_left
        intro e _
        have k1 := key e.1
        have k2 := key e.2
        congr 1
        · by_cases h : e.1 = c
          · rw [if_pos h, if_pos h]
            linear_combination (neighbour m q c e.2).w * (neighbour m q c e.2).dy * k2
          · rw [if_neg h, if_neg h]
        · by_cases h : e.2 = c
          · rw [if_pos h, if_pos h]
            linear_combination (neighbour m q c e.1).w * (neighbour m q c e.1).dy * k1
          · rw [if_neg h, if_neg h]
    obtain ⟨e1, e2⟩ := hb1
    unfold lsDet
    rcases hab with h | h
    · apply mul_left_cancel₀ h
      linear_combination -lsM00 m c * e2 + lsM01 m c * e1
    · apply mul_left_cancel₀ h
      linear_combination lsM11 m c * e1 - lsM01 m c * e2
  have hinv : lsInv m c = (0, 0, 0) := by
    unfold lsInv
    rw [hdet, abs_zero, if_pos (by norm_num)]
  obtain ⟨g1, g2⟩ := lsGrad_eq m q c
  rw [g1, g2, hinv]
  simp

/-- C85 (strips): on a mesh whose centroids lie on a straight line (a channel one cell wide), second-order runs
are first-order runs: the interior fluxes of every cell are those without reconstruction. -/
theorem C85_strip (M : MProblem) {a b : ℝ} (hab : a ≠ 0 ∨ b ≠ 0)
    (hline : ∀ c d, b * (M.x d - M.x c) = a * (M.y d - M.y c)) (P : FlowParams) (l : Limiter)
    (U : ℕ → Cons) (hU : ∀ c, 0 ≤ (U c).h) (γ : ℕ) (k : Flux → ℝ) :
    M.interior P false l U γ k = (M.edges.map fun e => M.Q.edgeTerm P false U γ k e.plain).sum := by
  unfold MProblem.interior
  congr 1
  apply List.map_congr_left
  intro e _
  exact (C85_first_order M P l U e ⟨hU _, hU _⟩ fun q =>
    ⟨strip_gradients M.ls hab hline q e.left, strip_gradients M.ls hab hline q e.right⟩).2 γ k

/-! ### Backends -/

/-- C85 (backends), partial: with the same limiter the two backends compute the same interior fluxes from every
solution for which no depth on an edge is exactly `tiny_h`. Missing: depths equal to `tiny_h`
(`C48_threshold_violated`) and the choice of the limiter (C68). -/
theorem C85_backends_partial (M : MProblem) {P : FlowParams} (hg : 0 ≤ P.g) (ht : 0 < P.tinyH) (l : Limiter)
    (U : ℕ → Cons)
    (h : ∀ e ∈ M.edges, (M.states l U e).1.h ≠ P.tinyH ∧ (M.states l U e).2.h ≠ P.tinyH) (γ : ℕ)
    (k : Flux → ℝ) : M.interior P true l U γ k = M.interior P false l U γ k := by
  unfold MProblem.interior
  congr 1
  apply List.map_congr_left
  intro e he
  obtain ⟨h1, h2⟩ := h e he
  have : stateFlux P true (M.states l U e) e.sn e.cn = stateFlux P false (M.states l U e) e.sn e.cn := by
    unfold stateFlux
    simp only [if_true, Bool.false_eq_true, if_false]
    exact C48_interior _ _ _ _ _ hg ht h1 h2
  unfold MProblem.edgeTerm
  rw [this]

/-! ### Degenerate cells -/

/-- C85 (degenerate cells), partial: a cell is degenerate on the process that owns it exactly if it is on the
whole mesh. Missing: ghost cells, which are counted too, see `C85_warning_violated`. -/
theorem C85_degenerate_partial {M : MProblem} {n : ℕ} {pr : Fin n → MProc} {gid : Fin n → ℕ → ℕ}
    {owner : ℕ → Fin n} {seen : Fin n → MEdge → Bool} {eowner : MEdge → Fin n}
    (hD : MDivides M pr gid owner seen eowner) (p : Fin n) {c : ℕ} (hc : c < (pr p).pm.numCells)
    (ho : (pr p).pm.owned c = true) : lsDet (pr p).ls c = lsDet M.ls (gid p c) := by
  obtain ⟨a0, a1, a2⟩ := lsM_eq (pr p).ls (fun i => (fun _ => (0 : ℝ)) (gid p i)) c
  obtain ⟨b0, b1, b2⟩ := lsM_eq M.ls (fun _ => 0) (gid p c)
  unfold lsDet
  rw [a0, a1, a2, b0, b1, b2, owned_nsum hD (fun _ => 0) p hc ho, owned_nsum hD (fun _ => 0) p hc ho,
    owned_nsum hD (fun _ => 0) p hc ho]

/-! ### Example: four squares on one process and on two -/

/-- data of the four unit squares, with rain on cell 3 and two reflecting boundary edges -/
noncomputable def exFour : GProblem where
  N := 4
  area _ := 1
  zc _ := 0
  dzdx _ := 0
  dzdy _ := 0
  src γ := ⟨if γ = 3 then 1e-3 else 0, 0, 0⟩
  mann _ := 0.03
  edges := []
  bedges := [⟨0, 1, 0, -1, .reflecting⟩, ⟨3, 1, 0, 1, .reflecting⟩]

/-- four unit squares with centroids (0,0), (1,0), (0,1), (1,1) -/
noncomputable def exGrid : MProblem where
  Q := exFour
  x γ := if γ = 1 ∨ γ = 3 then 1 else 0
  y γ := if γ = 2 ∨ γ = 3 then 1 else 0
  edges := [⟨0, 1, 1 / 2, -1 / 2, 1 / 2, 1 / 2, true, 1, 0, 1⟩, ⟨0, 2, 1 / 2, 1 / 2, -1 / 2, 1 / 2, true, 1, 1, 0⟩,
    ⟨1, 3, 3 / 2, 1 / 2, 1 / 2, 1 / 2, true, 1, 1, 0⟩, ⟨2, 3, 1 / 2, 1 / 2, 1 / 2, 3 / 2, true, 1, 0, 1⟩]

/-- the four squares on one process -/
noncomputable def exGrid1 (_ : Fin 1) : MProc where
  pm := ⟨4, fun _ => 1, fun _ => true, fun c => c, [], exFour.bedges, fun _ => 0, fun _ => 0, fun _ => 0⟩
  x := exGrid.x
  y := exGrid.y
  edges := exGrid.edges

/-- Process 0 owns cell 0 and has cells 1 and 2 as ghosts; process 1 owns cells 1, 2, 3 and has cell 0 as its
last cell. Process 1 sees the edge between cells 0 and 1 from the other side. -/
noncomputable def exGrid2 (p : Fin 2) : MProc where
  pm := if p = 0 then
      ⟨3, fun _ => 1, fun c => c == 0, fun c => c, [], [⟨0, 1, 0, -1, .reflecting⟩], fun _ => 0, fun _ => 0, fun _ => 0⟩
    else ⟨4, fun _ => 1, fun c => decide (c < 3), fun c => c, [], [⟨2, 1, 0, 1, .reflecting⟩], fun _ => 0, fun _ => 0,
      fun _ => 0⟩
  x c := if p = 0 then exGrid.x c else exGrid.x ((c + 1) % 4)
  y c := if p = 0 then exGrid.y c else exGrid.y ((c + 1) % 4)
  edges := if p = 0 then
      [⟨0, 2, 1 / 2, 1 / 2, -1 / 2, 1 / 2, true, 1, 1, 0⟩, ⟨0, 1, 1 / 2, -1 / 2, 1 / 2, 1 / 2, true, 1, 0, 1⟩]
    else [⟨0, 3, 1 / 2, 1 / 2, 1 / 2, -1 / 2, false, 1, 0, -1⟩, ⟨3, 1, 1 / 2, 1 / 2, -1 / 2, 1 / 2, false, 1, 1, 0⟩,
      ⟨0, 2, 3 / 2, 1 / 2, 1 / 2, 1 / 2, true, 1, 1, 0⟩, ⟨1, 2, 1 / 2, 1 / 2, 1 / 2, 3 / 2, true, 1, 0, 1⟩]

/-- cell numbers of the two processes -/
def exGridGid (p : Fin 2) (c : ℕ) : ℕ := if p = 0 then c else (c + 1) % 4

theorem exGrid1_divides : MDivides exGrid exGrid1 (fun _ c => c) (fun _ => 0) (fun _ _ => true) (fun _ => 0) where
  valid p e he := by
    simp only [exGrid1, exGrid, List.mem_cons, List.not_mem_nil, or_false] at he
    rcases he with rfl | rfl | rfl | rfl <;> simp [exGrid1]
  lt p c hc := hc
  inj _ _ _ _ _ h := h
  cover γ hγ := ⟨γ, hγ, rfl⟩
  owned p c _ := by simp [exGrid1, Subsingleton.elim p 0]
  area _ _ _ := rfl
  x _ _ _ := rfl
  y _ _ _ := rfl
  edges p := by
    have hp : p = 0 := Subsingleton.elim _ _
    subst hp
    refine ⟨exGrid.edges, List.Perm.refl _, ?_⟩
    rw [List.filter_true]
    refine List.forall₂_same.mpr ?_
    intro e he
    refine ⟨⟨rfl, Or.inl ⟨rfl, rfl, rfl, rfl⟩, Or.inl ⟨rfl, rfl, rfl, rfl⟩⟩, ?_⟩
    simp only [exGrid, List.mem_cons, List.not_mem_nil, or_false] at he
    rcases he with rfl | rfl | rfl | rfl <;> simp
  sees _ _ _ _ := rfl

theorem exGrid2_divides : MDivides exGrid exGrid2 exGridGid (fun γ => if γ = 0 then 0 else 1)
    (fun p e => p == 1 || e.left == 0) (fun e => if e.left = 0 then 0 else 1) where
  valid p e he := by
    fin_cases p
    · simp only [exGrid2, Fin.zero_eta, if_true, List.mem_cons, List.not_mem_nil, or_false] at he ⊢
      rcases he with rfl | rfl <;> simp
    · simp only [exGrid2, Fin.mk_one, one_ne_zero, if_false, List.mem_cons, List.not_mem_nil, or_false] at he ⊢
      rcases he with rfl | rfl | rfl | rfl <;> simp
  lt p c hc := by
    fin_cases p
    · simp [exGrid2, exGridGid, exGrid, exFour] at *
      omega
    · simp [exGrid2, exGridGid, exGrid, exFour] at *
      omega
  inj p c hc c' hc' h := by
    fin_cases p
    · simpa [exGridGid] using h
    · simp [exGrid2, exGridGid] at *
      omega
  cover γ hγ := by
    by_cases h : γ = 0
    · exact ⟨0, by simp [h, exGrid2], by simp [h, exGridGid]⟩
    · refine ⟨γ - 1, ?_, ?_⟩
      · simp only [exGrid, exFour] at hγ
        simp [h, exGrid2]
        omega
      · simp only [exGrid, exFour] at hγ
        simp [h, exGridGid]
        omega
  owned p c hc := by
    fin_cases p
    · simp [exGrid2, exGridGid]
    · simp [exGrid2, exGridGid] at *
      omega
  area p c _ := by fin_cases p <;> simp [exGrid2, exGrid, exFour]
  x p c _ := by fin_cases p <;> simp [exGrid2, exGridGid]
  y p c _ := by fin_cases p <;> simp [exGrid2, exGridGid]
  edges p := by
    fin_cases p
    · refine ⟨[⟨0, 1, 1 / 2, -1 / 2, 1 / 2, 1 / 2, true, 1, 0, 1⟩,
        ⟨0, 2, 1 / 2, 1 / 2, -1 / 2, 1 / 2, true, 1, 1, 0⟩], ?_, ?_⟩
      · simp only [exGrid2, Fin.zero_eta, if_true]
        exact List.Perm.swap _ _ _
      · have : exGrid.edges.filter (fun e => (0 : Fin 2) == 1 || e.left == 0) =
            [⟨0, 1, 1 / 2, -1 / 2, 1 / 2, 1 / 2, true, 1, 0, 1⟩,
              ⟨0, 2, 1 / 2, 1 / 2, -1 / 2, 1 / 2, true, 1, 1, 0⟩] := by
          simp [exGrid]
        simp only [Fin.zero_eta]
        rw [this]
        refine List.Forall₂.cons ⟨⟨rfl, Or.inl ?_, Or.inl ?_⟩, ?_⟩
          (List.Forall₂.cons ⟨⟨rfl, Or.inl ?_, Or.inl ?_⟩, ?_⟩ List.Forall₂.nil) <;> simp [exGridGid]
    · refine ⟨_, List.Perm.refl _, ?_⟩
      have : exGrid.edges.filter (fun e => (1 : Fin 2) == 1 || e.left == 0) = exGrid.edges := by
        simp [exGrid]
      simp only [Fin.mk_one]
      rw [this]
      simp only [exGrid, exGrid2, one_ne_zero, if_false]
      refine List.Forall₂.cons ⟨⟨rfl, Or.inr ?_, Or.inr ?_⟩, ?_⟩
          (List.Forall₂.cons ⟨⟨rfl, Or.inl ?_, Or.inl ?_⟩, ?_⟩
          (List.Forall₂.cons ⟨⟨rfl, Or.inl ?_, Or.inl ?_⟩, ?_⟩
          (List.Forall₂.cons ⟨⟨rfl, Or.inl ?_, Or.inl ?_⟩, ?_⟩ List.Forall₂.nil))) <;> simp [exGridGid]
  sees p e he h := by
    fin_cases p
    · simp only [exGrid, List.mem_cons, List.not_mem_nil, or_false] at he
      rcases he with rfl | rfl | rfl | rfl <;> simp at h ⊢
    · simp

theorem exGrid1_data : Divides exFour (fun p => (exGrid1 p).pm) (fun _ c => c) (fun _ => 0)
    (fun _ => exFour.src) (fun _ => exFour.mann) where
  lt p c hc := hc
  inj p c hc c' hc' h := h
  cover γ hγ := ⟨γ, hγ, rfl⟩
  area _ _ _ := rfl
  zc _ _ _ := rfl
  dzdx _ _ _ := rfl
  dzdy _ _ _ := rfl
  src p c _ ho := rfl
  mann p c _ ho := rfl
  bedges p := by
    have hp : p = 0 := Subsingleton.elim _ _
    subst hp
    simp [exGrid1, exFour]

theorem exGrid2_data : Divides exFour (fun p => (exGrid2 p).pm) exGridGid (fun γ => if γ = 0 then 0 else 1)
    (fun p c => exFour.src (exGridGid p c)) (fun _ => exFour.mann) where
  lt := exGrid2_divides.lt
  inj := exGrid2_divides.inj
  cover := exGrid2_divides.cover
  area := exGrid2_divides.area
  zc p _ _ := by fin_cases p <;> simp [exGrid2, exFour]
  dzdx p _ _ := by fin_cases p <;> simp [exGrid2, exFour]
  dzdy p _ _ := by fin_cases p <;> simp [exGrid2, exFour]
  src p c _ _ := by fin_cases p <;> simp [exGrid2]
  mann p c _ _ := rfl
  bedges p := by
    fin_cases p <;> simp [exGrid2, exFour, exGridGid]

theorem exGrid2_valid (p : Fin 2) : EdgesValid (exGrid2 p).pm ∧ OwnedInj (exGrid2 p).pm := by
  refine ⟨⟨?_, ?_, ?_, ?_⟩, ?_⟩ <;> fin_cases p <;> simp [exGrid2, OwnedInj]

/-- the warning on one process and on two -/
theorem exGrid_dets : (∀ c < 4, lsDet exGrid.ls c = 1) ∧ lsDet (exGrid2 0).ls 1 = 0 ∧
    lsDet (exGrid2 0).ls 2 = 0 := by
  refine ⟨?_, ?_, ?_⟩
  · intro c hc
    interval_cases c <;> simp [lsDet, lsM00, lsM01, lsM11, lsAccumulate, bump, lsW, lsDx, lsDy, MProblem.ls,
      exGrid]
  · simp [lsDet, lsM00, lsM01, lsM11, lsAccumulate, bump, lsW, lsDx, lsDy, MProc.ls, exGrid2, exGrid]
  · simp [lsDet, lsM00, lsM01, lsM11, lsAccumulate, bump, lsW, lsDx, lsDy, MProc.ls, exGrid2, exGrid]

/-- C85 (steps exist): from every state with non-negative depths a second-order step can be taken. -/
theorem C85_step_defined {M : MProblem} {n : ℕ} {pr : Fin n → MProc} {gid : Fin n → ℕ → ℕ} {owner : ℕ → Fin n}
    {seen : Fin n → MEdge → Bool} {eowner : MEdge → Fin n} {src : Fin n → ℕ → Flux} {mann : Fin n → ℕ → ℝ}
    (hD : MDivides M pr gid owner seen eowner)
    (hB : Divides M.Q (fun p => (pr p).pm) gid owner src mann) (hv : ∀ p, EdgesValid (pr p).pm)
    (hinj : ∀ p, OwnedInj (pr p).pm) {P : FlowParams} (hg : 0 < P.g) (ht : 0 < P.tinyH)
    (hx : 0 < P.xqThreshold) (l : Limiter) (m : FrictionMethod) {dt : ℝ} (hdt : 0 ≤ dt) (U : ℕ → Cons)
    (hU : ∀ c, 0 ≤ (U c).h) (hb : ∀ e ∈ M.Q.bedges, ∀ qb, e.bc = .dirichlet qb → 0 ≤ qb.h) :
    ∃ U', EulerStep2R P l m pr gid dt src mann U U' := by
  have hF : ∀ γ, ∃ F, M.rhs P l m dt U γ = some F := fun γ =>
    Option.isSome_iff_exists.mp (isSome_map' _ (friction_isSome m _ _ _ _ _ _ hg ht hx hdt))
  choose F hF using hF
  refine ⟨fun γ => ⟨(U γ).h + dt * (F γ).m, (U γ).hu + dt * (F γ).x, (U γ).hv + dt * (F γ).y⟩, ?_⟩
  rw [euler2R_iff hD hB hv hinj ht]
  exact ⟨fun e he => C39_boundary_defined _ _ _ _ _ hg ht (hU _) (hb e he),
    fun γ _ => ⟨F γ, hF γ, rfl, rfl, rfl⟩⟩

theorem exFour_bc : ∀ e ∈ exFour.bedges, ∀ qb, e.bc = .dirichlet qb → 0 ≤ qb.h := by
  intro e he qb h
  simp only [exFour, List.mem_cons, List.not_mem_nil, or_false] at he
  rcases he with rfl | rfl <;> simp at h

theorem exGrid1_valid (p : Fin 1) : EdgesValid (exGrid1 p).pm ∧ OwnedInj (exGrid1 p).pm := by
  refine ⟨⟨?_, ?_, ?_, ?_⟩, ?_⟩ <;> simp [exGrid1, OwnedInj, exFour]

example (l : Limiter) (m : FrictionMethod) (U : ℕ → Cons) (hU : ∀ c, 0 ≤ (U c).h) :
    ∃ U', EulerStep2R exParams l m exGrid2 exGridGid 0.5 (fun p c => exFour.src (exGridGid p c))
      (fun _ => exFour.mann) U U' :=
  C85_step_defined exGrid2_divides exGrid2_data (fun p => (exGrid2_valid p).1) (fun p => (exGrid2_valid p).2)
    (by norm_num [exParams]) (by norm_num [exParams]) (by norm_num [exParams]) l m (by norm_num) U hU exFour_bc

/-- the step on two processes is one on one process, and the volume changes by the rain on cell 3 (the walls let
nothing out) -/
example (l : Limiter) (m : FrictionMethod) (U : ℕ → Cons) (hU : ∀ c, 0 ≤ (U c).h) :
    ∃ U', EulerStep2R exParams l m exGrid2 exGridGid 0.5 (fun p c => exFour.src (exGridGid p c))
      (fun _ => exFour.mann) U U' ∧
    EulerStep2R exParams l m exGrid1 (fun _ c => c) 0.5 (fun _ => exFour.src) (fun _ => exFour.mann) U U' ∧
    exGrid.volume U' = exGrid.volume U + 0.5 * 1e-3 - 0.5 * exGrid.outflow exParams U := by
  have ht : 0 < exParams.tinyH := by norm_num [exParams]
  obtain ⟨U', h⟩ := C85_step_defined exGrid2_divides exGrid2_data (fun p => (exGrid2_valid p).1)
    (fun p => (exGrid2_valid p).2) (P := exParams) (by norm_num [exParams]) ht (by norm_num [exParams]) l m
    (dt := 0.5) (by norm_num) U hU exFour_bc
  have h1 := (C85_run (M := fun _ => exGrid) (pr := fun _ => exGrid2) (pr' := fun _ => exGrid1)
    (fun _ => exGrid2_divides) (fun _ => exGrid2_data) (fun _ p => (exGrid2_valid p).1)
    (fun _ p => (exGrid2_valid p).2) (fun _ => exGrid1_divides) (fun _ => exGrid1_data)
    (fun _ p => (exGrid1_valid p).1) (fun _ p => (exGrid1_valid p).2) ht (l := l) (m := m) (fun _ => 0.5)
    (fun i => if i = 0 then U else U') 1).mp (fun i hi => by
      have : i = 0 := by omega
      subst this
      simpa using h)
  have h2 := C85_volume (M := fun _ => exGrid) (pr := fun _ => exGrid2)
    (fun _ => exGrid2_divides) (fun _ => exGrid2_data) (fun _ p => (exGrid2_valid p).1)
    (fun _ p => (exGrid2_valid p).2) (fun _ e he => by
      simp only [exGrid, List.mem_cons, List.not_mem_nil, or_false] at he
      rcases he with rfl | rfl | rfl | rfl <;> simp [exGrid, exFour])
    (fun _ e he => by
      simp only [exGrid, exFour, List.mem_cons, List.not_mem_nil, or_false] at he
      rcases he with rfl | rfl <;> simp [exGrid, exFour])
    (fun _ γ _ => by simp [exGrid, exFour]) (fun _ => ⟨rfl, rfl⟩) ht (l := l) (m := m) (fun _ => 0.5)
    (fun i => if i = 0 then U else U') 1 (fun i hi => by
      have : i = 0 := by omega
      subst this
      simpa using h)
  refine ⟨U', h, by simpa using h1 0 (by norm_num), ?_⟩
  simpa [MProblem.inflow, exGrid, exFour, Finset.sum_range_succ] using h2

/-- with depth `1 + x`, the slope that process 0 itself computes for its ghost cell 1 is 0; the communicated
slope is that of the whole mesh -/
example : lsGradX (exGrid2 0).ls (fun c => 1 + (exGrid2 0).x c) 1 = 0 ∧
    (commGradients exGrid2 exGridGid (fun p c => ⟨1 + exGrid.x (exGridGid p c), 0, 0⟩) 0).1.h 1 = 1 := by
  constructor
  · obtain ⟨g1, -⟩ := lsGrad_eq (exGrid2 0).ls (fun c => 1 + (exGrid2 0).x c) 1
    rw [g1]
    unfold lsInv
    rw [exGrid_dets.2.1]
    norm_num
  · have h := C85_gradients exGrid2_divides (fun γ => ⟨1 + exGrid.x γ, 0, 0⟩) 0 (c := 1) (by simp [exGrid2])
    rw [h.1.1]
    simp only [lsGradients, fieldOf]
    norm_num [lsGradX, lsCoeff, lsInv, lsDet, lsM00, lsM01, lsM11, lsAccumulate, bump, lsW, lsDx, lsDy, MProblem.ls,
      exGrid, exGridGid]

/-- C85 (warning) is violated: the warning that cells have a degenerate stencil counts ghost cells, of which a
process does not know all neighbours. The same mesh gives no warning on one process and a warning about
two cells on two processes. The gradients are not affected, see `C85_gradients`. -/
theorem C85_warning_violated : MDivides exGrid exGrid1 (fun _ c => c) (fun _ => 0) (fun _ _ => true) (fun _ => 0) ∧
    MDivides exGrid exGrid2 exGridGid (fun γ => if γ = 0 then 0 else 1) (fun p e => p == 1 || e.left == 0)
      (fun e => if e.left = 0 then 0 else 1) ∧
    degenerateCount exGrid1 = 0 ∧ degenerateCount exGrid2 = 2 := by
  refine ⟨exGrid1_divides, exGrid2_divides, ?_, ?_⟩
  · have h : ∀ c < 4, lsDet (exGrid1 0).ls c = 1 := fun c hc => exGrid_dets.1 c hc
    have hn : (exGrid1 0).pm.numCells = 4 := rfl
    unfold degenerateCount
    rw [Fin.sum_univ_one, hn]
    simp only [List.range_succ, List.range_zero, List.nil_append, List.cons_append, List.map_cons, List.map_nil,
      List.sum_cons, List.sum_nil]
    rw [h 0 (by norm_num), h 1 (by norm_num), h 2 (by norm_num), h 3 (by norm_num)]
    norm_num
  · have h : ∀ c < 4, lsDet (exGrid2 1).ls c = 1 := by
      intro c hc
      interval_cases c <;> norm_num [lsDet, lsM00, lsM01, lsM11, lsAccumulate, bump, lsW, lsDx, lsDy, MProc.ls,
        exGrid2, exGrid]
    have h0 : lsDet (exGrid2 0).ls 0 = 1 := by
      norm_num [lsDet, lsM00, lsM01, lsM11, lsAccumulate, bump, lsW, lsDx, lsDy, MProc.ls, exGrid2, exGrid]
    have hn : (exGrid2 0).pm.numCells = 3 := by simp [exGrid2]
    have hn1 : (exGrid2 1).pm.numCells = 4 := by simp [exGrid2]
    unfold degenerateCount
    rw [Fin.sum_univ_two, hn, hn1]
    simp only [List.range_succ, List.range_zero, List.nil_append, List.cons_append, List.map_cons, List.map_nil,
      List.sum_cons, List.sum_nil]
    rw [h 0 (by norm_num), h 1 (by norm_num), h 2 (by norm_num), h 3 (by norm_num), h0, exGrid_dets.2.1,
      exGrid_dets.2.2]
    norm_num

/-! ### Example: two cells, CEED -/

/-- two cells next to each other -/
noncomputable def exTwo : MProblem where
  Q := exProblem
  x γ := if γ = 0 then 0 else 1
  y _ := 0
  edges := [⟨0, 1, 1 / 2, -1 / 2, 1 / 2, 1 / 2, true, 1, 0, 1⟩]

/-- the two cells on two processes, with the ghost cell before the owned cell on process 0 -/
noncomputable def exTwoGhostFirst (p : Fin 2) : MProc where
  pm := exCeedGhostFirst p
  x c := exTwo.x (1 - c)
  y _ := 0
  edges := [⟨1, 0, 1 / 2, -1 / 2, 1 / 2, 1 / 2, p == 0, 1, 0, 1⟩]

/-- the two cells on two processes, owned cells first -/
noncomputable def exTwoOwnedFirst (p : Fin 2) : MProc where
  pm := exCeedOwnedFirst p
  x c := exTwo.x (exGid p c)
  y _ := 0
  edges := if p = 0 then [⟨0, 1, 1 / 2, -1 / 2, 1 / 2, 1 / 2, true, 1, 0, 1⟩]
    else [⟨0, 1, 1 / 2, 1 / 2, 1 / 2, -1 / 2, false, 1, -0, -1⟩]

theorem exTwoGhostFirst_divides : MDivides exTwo exTwoGhostFirst (fun _ c => 1 - c)
    (fun γ => if γ = 0 then 0 else 1) (fun _ _ => true) (fun _ => 0) where
  valid p e he := by
    simp only [exTwoGhostFirst, List.mem_singleton] at he
    subst he
    simp [exTwoGhostFirst, exCeedGhostFirst]
  lt p c hc := by
    simp only [exTwo, exProblem]
    omega
  inj p c hc c' hc' h := by
    simp only [exTwoGhostFirst, exCeedGhostFirst] at hc hc'
    omega
  cover γ hγ := by
    simp only [exTwo, exProblem] at hγ
    refine ⟨1 - γ, ?_, ?_⟩
    · simp only [exTwoGhostFirst, exCeedGhostFirst]
      omega
    · show 1 - (1 - γ) = γ
      omega
  owned p c hc := by
    simp only [exTwoGhostFirst, exCeedGhostFirst] at hc ⊢
    fin_cases p <;> interval_cases c <;> simp
  area _ _ _ := rfl
  x _ _ _ := rfl
  y _ _ _ := rfl
  edges p := by
    refine ⟨_, List.Perm.refl _, ?_⟩
    rw [List.filter_true]
    refine List.Forall₂.cons ⟨⟨rfl, Or.inl ⟨rfl, rfl, rfl, rfl⟩, Or.inl ⟨rfl, rfl, rfl, rfl⟩⟩, ?_⟩ List.Forall₂.nil
    fin_cases p <;> simp
  sees _ _ _ _ := rfl

theorem exTwoOwnedFirst_divides : MDivides exTwo exTwoOwnedFirst exGid
    (fun γ => if γ = 0 then 0 else 1) (fun _ _ => true) (fun _ => 0) where
  valid p e he := by
    fin_cases p
    · simp only [exTwoOwnedFirst, Fin.zero_eta, if_true, List.mem_singleton] at he
      subst he
      simp [exTwoOwnedFirst, exCeedOwnedFirst]
    · simp only [exTwoOwnedFirst, Fin.mk_one, one_ne_zero, if_false, List.mem_singleton] at he
      subst he
      simp [exTwoOwnedFirst, exCeedOwnedFirst]
  lt p c hc := by
    simp only [exTwoOwnedFirst, exCeedOwnedFirst, exTwo, exProblem] at hc ⊢
    fin_cases p <;> interval_cases c <;> simp [exGid]
  inj p c hc c' hc' h := by
    simp only [exTwoOwnedFirst, exCeedOwnedFirst] at hc hc'
    fin_cases p <;> interval_cases c <;> interval_cases c' <;> simp [exGid] at h ⊢
  cover γ hγ := by
    simp only [exTwo, exProblem] at hγ
    refine ⟨0, by simp [exTwoOwnedFirst, exCeedOwnedFirst], ?_⟩
    interval_cases γ <;> simp [exGid]
  owned p c hc := by
    simp only [exTwoOwnedFirst, exCeedOwnedFirst] at hc ⊢
    fin_cases p <;> interval_cases c <;> simp [exGid]
  area _ _ _ := rfl
  x _ _ _ := rfl
  y _ _ _ := rfl
  edges p := by
    refine ⟨_, List.Perm.refl _, ?_⟩
    rw [List.filter_true]
    fin_cases p
    · exact List.Forall₂.cons ⟨⟨rfl, Or.inl ⟨rfl, rfl, rfl, rfl⟩, Or.inl ⟨rfl, rfl, rfl, rfl⟩⟩, by simp⟩
        List.Forall₂.nil
    · exact List.Forall₂.cons ⟨⟨rfl, Or.inr ⟨rfl, rfl, rfl, rfl⟩, Or.inr ⟨rfl, rfl, rfl, rfl⟩⟩, by simp⟩
        List.Forall₂.nil
  sees _ _ _ _ := rfl

theorem exTwo_strip (q : ℕ → ℝ) (c : ℕ) : lsGradX exTwo.ls q c = 0 ∧ lsGradY exTwo.ls q c = 0 :=
  strip_gradients exTwo.ls (a := 1) (b := 0) (Or.inl one_ne_zero) (fun c d => by simp [MProblem.ls, exTwo]) q c

/-- the pair is a strip: with and without limiter, its second-order fluxes are its first-order fluxes -/
example (l : Limiter) (U : ℕ → Cons) (hU : ∀ c, 0 ≤ (U c).h) (γ : ℕ) :
    exTwo.interior exParams false l U γ Flux.m = exProblem.edgeTerm exParams false U γ Flux.m ⟨0, 1, 1, 0, 1⟩ := by
  rw [C85_strip exTwo (a := 1) (b := 0) (Or.inl one_ne_zero) (fun c d => by simp [exTwo]) exParams l U hU]
  simp [exTwo, MEdge.plain]

theorem exTwo_states (l : Limiter) : exTwo.states l exSteps
    ⟨0, 1, 1 / 2, -1 / 2, 1 / 2, 1 / 2, true, 1, 0, 1⟩ = (⟨2, 0, 0⟩, ⟨1, 0, 0⟩) := by
  have := (C85_first_order exTwo exParams l exSteps ⟨0, 1, 1 / 2, -1 / 2, 1 / 2, 1 / 2, true, 1, 0, 1⟩
    (by norm_num [exSteps]) fun q => ⟨exTwo_strip q _, exTwo_strip q _⟩).1
  rw [this]
  simp [exSteps]

/-- both backends agree on the pair -/
example (l : Limiter) (γ : ℕ) : exTwo.interior exParams true l exSteps γ Flux.m =
    exTwo.interior exParams false l exSteps γ Flux.m :=
  C85_backends_partial exTwo (by norm_num [exParams]) (by norm_num [exParams]) l exSteps
    (fun e he => by
      simp only [exTwo, List.mem_singleton] at he
      subst he
      rw [exTwo_states]
      norm_num [exParams]) γ Flux.m

/-- the states on the edge, as process 0 of the division with the ghost cell first computes them -/
theorem exTwo_faces (l : Limiter) : faceStates l exTwoGhostFirst (fun _ c => 1 - c)
      (fun _ c => exSteps (1 - c)) 0 = [⟨1, 0, 1, 0, 1, ⟨2, 0, 0⟩, ⟨1, 0, 0⟩⟩] ∧
    faceStates l exTwoGhostFirst (fun _ c => 1 - c) (fun _ c => exSteps (1 - c)) 1 = [] := by
  constructor
  · have hs : SeesM (fun c => 1 - c) ⟨0, 1, 1 / 2, -1 / 2, 1 / 2, 1 / 2, true, 1, 0, 1⟩
        ⟨1, 0, 1 / 2, -1 / 2, 1 / 2, 1 / 2, true, 1, 0, 1⟩ :=
      ⟨rfl, Or.inl ⟨rfl, rfl, rfl, rfl⟩, Or.inl ⟨rfl, rfl, rfl, rfl⟩⟩
    have h := C85_states exTwoGhostFirst_divides l exSteps 0
      (le := ⟨1, 0, 1 / 2, -1 / 2, 1 / 2, 1 / 2, true, 1, 0, 1⟩) (by simp [exTwoGhostFirst]) hs
    rw [exTwo_states] at h
    rcases h with ⟨-, h⟩ | ⟨⟨h, -⟩, -⟩
    · obtain ⟨h1, h2⟩ := Prod.mk.injEq .. ▸ h
      have e : (exTwoGhostFirst 0).edges.filter MEdge.owned =
          [⟨1, 0, 1 / 2, -1 / 2, 1 / 2, 1 / 2, true, 1, 0, 1⟩] := by simp [exTwoGhostFirst]
      unfold faceStates
      rw [e, List.map_singleton]
      congr 1
      simp only [reconstructEdge] at h1 h2 ⊢
      rw [h1, h2]
    · exact absurd h (by norm_num)
  · simp [faceStates, exTwoGhostFirst]

/-- C85 is violated with CEED if a ghost cell precedes an owned cell in the local numbering: as in first-order
runs (`C73_ceed_numbering_violated`) the cells of process 0 receive each other's divergence, and the deep cell
gains mass although on the undivided mesh it loses mass. -/
theorem C85_ceed_numbering_violated (l : Limiter) :
    MDivides exTwo exTwoGhostFirst (fun _ c => 1 - c) (fun γ => if γ = 0 then 0 else 1) (fun _ _ => true)
      (fun _ => 0) ∧
    ∃ f : Fin 2 → ℕ → Flux,
      (∀ p, ceedDivergence2R exParams l exTwoGhostFirst (fun _ c => 1 - c) (fun _ c => exSteps (1 - c)) p =
        some (f p)) ∧
      exTwo.divCeed exParams l exSteps 0 Flux.m < 0 ∧
      0 < localToGlobalAdd (fun p => (exTwoGhostFirst p).pm.numCells) (fun _ c => 1 - c) f Flux.m 0 := by
  have hg : 0 < exParams.g := by norm_num [exParams]
  have ht : 0 < exParams.tinyH := by norm_num [exParams]
  have ht1 : exParams.tinyH < 1 := by norm_num [exParams]
  have ht2 : exParams.tinyH < 2 := by norm_num [exParams]
  obtain ⟨F, a, hF, hFm⟩ := step_rest (P := exParams) (d := 2) (d' := 1) hg ht ht1 (by norm_num)
  obtain ⟨G, b, hG, hGm⟩ := wall_rest (P := exParams) (d := 2) (cn := -1) hg ht ht2
  obtain ⟨H, c, hH, hHm⟩ := wall_rest (P := exParams) (d := 1) (cn := 1) hg ht ht1
  refine ⟨exTwoGhostFirst_divides, fun p => if p = 0 then
    addAt (addAt (addAt (fun _ => Flux.zero) 0 (F.smul (-1 / (1 / 2)))) 1 (F.smul (1 / (1 / 2)))) 0
      (G.smul (-1 / (1 / 2))) else addAt (fun _ => Flux.zero) 0 (H.smul (-1 / (1 / 2))), ?_, ?_, ?_⟩
  · intro p
    unfold ceedDivergence2R
    fin_cases p
    · simp only [Fin.zero_eta]
      rw [(exTwo_faces l).1]
      simp [exTwoGhostFirst, exCeedGhostFirst, ceedEdge2R, ceedBEdge, exSteps, hF, hG]
    · simp only [Fin.mk_one]
      rw [(exTwo_faces l).2]
      simp [exTwoGhostFirst, exCeedGhostFirst, ceedBEdge, exSteps, hH]
  · have hs := exTwo_states l
    simp only [MProblem.divCeed, MProblem.interior]
    have he : exTwo.edges = [⟨0, 1, 1 / 2, -1 / 2, 1 / 2, 1 / 2, true, 1, 0, 1⟩] := rfl
    rw [he]
    simp only [List.map_cons, List.map_nil, List.sum_cons, List.sum_nil, MProblem.edgeTerm, stateFlux, if_true]
    rw [hs]
    simp [exTwo, exProblem, exSteps, hF, bndFluxCeed, hG, hGm]
    linarith
  · simp [localToGlobalAdd, exTwoGhostFirst, exCeedGhostFirst, Finset.sum_range_succ, addAt, Flux.add, Flux.smul,
      Flux.zero, hGm, hHm]
    linarith

/-- with owned cells first the divergence is that of the whole mesh -/
example (l : Limiter) (f : Fin 2 → ℕ → Flux)
    (h : ∀ p, ceedDivergence2R exParams l exTwoOwnedFirst exGid (fun p c => exSteps (exGid p c)) p = some (f p))
    (γ : ℕ) : localToGlobalAdd (fun p => (exTwoOwnedFirst p).pm.numCells) exGid f Flux.m γ =
      exTwo.divCeed exParams l exSteps γ Flux.m :=
  C85_ceed_partial exTwoOwnedFirst_divides (bowner := fun b => if b.cell = 0 then 0 else 1)
    (fun p => exCeedOwnedFirst_divides.bedges p) (fun p => (exCeedOwnedFirst_divides.valid p).cell)
    (fun _ _ _ => rfl) (by norm_num [exParams]) l exSteps f h γ linF_m

end RDy
