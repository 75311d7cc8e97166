import Verif.Props.Roe
import Verif.Lemmas.Operator
import Mathlib.Algebra.BigOperators.Fin
import Mathlib.Data.Fintype.BigOperators
import Mathlib.Tactic.FinCases
import Mathlib.Tactic.IntervalCases

/-!
C41 and C42: conservation of volume and momentum by the PETSc operator, on any mesh and any partition.
-/

namespace RDy

open Finset

/-! ### Specification: a mesh distributed over processes -/

/-- An interior edge of the undivided mesh: global numbers of its two cells, length, normal pointing
from `c1` to `c2`. -/
structure GEdge where
  c1 : ℕ
  c2 : ℕ
  len : ℝ
  sn : ℝ
  cn : ℝ

/-- A local edge represents a global one: same cells and length, and the normal points from its left to
its right cell. Which cell is on the left may differ between processes. -/
def Sees (gid : ℕ → ℕ) (ge : GEdge) (le : IEdge) : Prop :=
  ∃ r, le.right = some r ∧ le.len = ge.len ∧
    ((gid le.left = ge.c1 ∧ gid r = ge.c2 ∧ le.sn = ge.sn ∧ le.cn = ge.cn) ∨
     (gid le.left = ge.c2 ∧ gid r = ge.c1 ∧ le.sn = -ge.sn ∧ le.cn = -ge.cn))

/-- A distributed mesh: `n` processes, each with its own numbering `gid p` of local cells. Every cell has
one owner; every process that owns a cell of an edge has the edge. -/
structure Partitioned (n : ℕ) (pm : Fin n → PMesh) (gid : Fin n → ℕ → ℕ) (owner : ℕ → Fin n)
    (G : List GEdge) (seen : Fin n → GEdge → Bool) : Prop where
  valid : ∀ p, EdgesValid (pm p)
  inj : ∀ p, OwnedInj (pm p)
  owned : ∀ p, ∀ c < (pm p).numCells, (pm p).owned c = true ↔ owner (gid p c) = p
  edges : ∀ p, ∃ l, List.Perm l ((pm p).internal.filter fun e => e.right.isSome) ∧
    List.Forall₂ (Sees (gid p)) (G.filter (seen p)) l
  seen : ∀ p, ∀ ge ∈ G, owner ge.c1 = p ∨ owner ge.c2 = p → seen p ge = true

/-- Area-weighted sum over all cells of the domain of a component `k` of vectors stored by owner. -/
noncomputable def globalTotal {n : ℕ} (pm : Fin n → PMesh) (k : Flux → ℝ) (f : Fin n → ℕ → Flux) : ℝ :=
  ∑ p, ∑ c ∈ range (pm p).numCells,
    if (pm p).owned c then (pm p).area c * k (f p ((pm p).l2o c)) else 0

/-- Volume of water in the domain. -/
noncomputable def globalVolume {n : ℕ} (pm : Fin n → PMesh) (gid : Fin n → ℕ → ℕ) (U : ℕ → Cons) : ℝ :=
  ∑ p, ∑ c ∈ range (pm p).numCells, if (pm p).owned c then (pm p).area c * (U (gid p c)).h else 0

theorem globalTotal_eq {n : ℕ} (pm : Fin n → PMesh) (k : Flux → ℝ) (f : Fin n → ℕ → Flux) :
    globalTotal pm k f = ∑ p, ownedTotal (pm p) k (f p) := rfl

/-! ### C41, one process -/

theorem edgeChange_zero {P : FlowParams} {pm : PMesh} {k : Flux → ℝ} {u : ℕ → Cons} {e : IEdge}
    (hl : pm.owned e.left = true) (hr : ∀ r, e.right = some r → pm.owned r = true) :
    edgeChange P pm k u e = 0 := by
  unfold edgeChange
  cases h : e.right with
  | none => rfl
  | some r =>
    simp only [hl, hr r h, if_true]
    ring

/-- C41. On one process (all cells owned), for every mesh, geometry and state, the interior fluxes do not
change the area-weighted sums of the right-hand side: water and momentum are only moved between
cells. -/
theorem C41_serial {P : FlowParams} {pm : PMesh} (hinj : OwnedInj pm) (hv : EdgesValid pm)
    (hall : ∀ c < pm.numCells, pm.owned c = true) (u : ℕ → Cons) (f f' : ℕ → Flux)
    (h : applyInterior P pm u f = some f') :
    (∑ c ∈ range pm.numCells, pm.area c * (f' (pm.l2o c)).m =
      ∑ c ∈ range pm.numCells, pm.area c * (f (pm.l2o c)).m) ∧
    (∑ c ∈ range pm.numCells, pm.area c * (f' (pm.l2o c)).x =
      ∑ c ∈ range pm.numCells, pm.area c * (f (pm.l2o c)).x) ∧
    (∑ c ∈ range pm.numCells, pm.area c * (f' (pm.l2o c)).y =
      ∑ c ∈ range pm.numCells, pm.area c * (f (pm.l2o c)).y) := by
  have key : ∀ k, LinF k → ∑ c ∈ range pm.numCells, pm.area c * k (f' (pm.l2o c)) =
      ∑ c ∈ range pm.numCells, pm.area c * k (f (pm.l2o c)) := by
    intro k hk
    have e := applyInterior_total hk hinj hv u f f' h
    have hz : (pm.internal.map (edgeChange P pm k u)).sum = 0 := by
      apply List.sum_eq_zero
      intro x hx
      rw [List.mem_map] at hx
      obtain ⟨e, he, rfl⟩ := hx
      exact edgeChange_zero (hall _ (hv.left e he)) fun r hr => hall r (hv.right e he r hr)
    rw [hz, add_zero] at e
    have hE : ∀ f, ownedTotal pm k f = ∑ c ∈ range pm.numCells, pm.area c * k (f (pm.l2o c)) := by
      intro f
      unfold ownedTotal
      apply sum_congr rfl
      intro c hc
      rw [if_pos (hall c (mem_range.mp hc))]
    rw [hE, hE] at e
    exact e
  exact ⟨key _ linF_m, key _ linF_x, key _ linF_y⟩

/-! ### C41, many processes -/

theorem edgeFlux_swap (P : FlowParams) (qL qR : Cons) (sn cn : ℝ) :
    edgeFlux P qR qL (-sn) (-cn) = (edgeFlux P qL qR sn cn).opp := by
  unfold edgeFlux
  rw [C37_used_antisymmetric]
  cases usedFlux P.g P.tinyH (velocities P.tinyH P.hAnuga qL) (velocities P.tinyH P.hAnuga qR) sn cn with
  | none => simp [Flux.opp, Flux.zero]
  | some F => rfl

theorem hrFlux_swap (P : FlowParams) (L R : Prim) (sn cn : ℝ) :
    hrFlux P R L (-sn) (-cn) = (hrFlux P L R sn cn).map Flux.opp := by
  unfold hrFlux
  rw [C37_antisymmetric]
  by_cases h : L.h > P.tinyH ∨ R.h > P.tinyH
  · rw [if_pos h, if_pos (Or.symm h)]
    cases roeFlux P.g L R sn cn <;> rfl
  · rw [if_neg h, if_neg (fun h2 => h (Or.symm h2))]
    simp [Flux.opp]

theorem edgeFluxHR_swap (P : FlowParams) (zL zR : ℝ) (qL qR : Cons) (sn cn : ℝ) :
    edgeFluxHR P zR zL qR qL (-sn) (-cn) = (edgeFluxHR P zL zR qL qR sn cn).opp := by
  unfold edgeFluxHR
  by_cases h : qR.h < P.tinyH ∧ qL.h < P.tinyH
  · rw [if_pos h, if_pos (And.symm h)]
    simp [Flux.opp, Flux.zero]
  · rw [if_neg h, if_neg (fun h2 => h (And.symm h2)), max_comm zR zL, hrFlux_swap]
    cases hrFlux P (hrState P zL (max zL zR) qL) (hrState P zR (max zL zR) qR) sn cn with
    | none => simp [Flux.opp, Flux.zero]
    | some F => rfl

/-- The sum over all processes of per-edge changes vanishes if each local change is the one of the
global edge. -/
theorem partition_sum_zero {n : ℕ} {pm : Fin n → PMesh} {gid : Fin n → ℕ → ℕ} {owner : ℕ → Fin n}
    {G : List GEdge} {seen : Fin n → GEdge → Bool} (hp : Partitioned n pm gid owner G seen)
    (K : GEdge → ℝ) (d : Fin n → IEdge → ℝ) (hnone : ∀ p e, e.right = none → d p e = 0)
    (hd : ∀ p, ∀ ge ∈ G, ∀ le ∈ (pm p).internal, Sees (gid p) ge le →
      d p le = (if owner ge.c1 = p then -ge.len * K ge else 0) +
        if owner ge.c2 = p then ge.len * K ge else 0) :
    ∑ p, ((pm p).internal.map (d p)).sum = 0 := by
  set D : Fin n → GEdge → ℝ := fun p ge => (if owner ge.c1 = p then -ge.len * K ge else 0) +
        if owner ge.c2 = p then ge.len * K ge else 0 with hD
  have h1 : ∀ p, ((pm p).internal.map (d p)).sum = (G.map (D p)).sum := by
    intro p
    obtain ⟨l, hperm, hall⟩ := hp.edges p
    have e1 : ((pm p).internal.map (d p)).sum =
        (((pm p).internal.filter fun e => e.right.isSome).map (d p)).sum := by
      generalize (pm p).internal = L
      induction L with
      | nil => rfl
      | cons a L ih =>
        rw [List.filter_cons, List.map_cons, List.sum_cons, ih]
        by_cases ha : a.right.isSome = true
        · rw [if_pos ha]; rfl
        · rw [if_neg ha, hnone p a (by simpa using ha), zero_add]
    have e2 : (((pm p).internal.filter fun e => e.right.isSome).map (d p)).sum = (l.map (d p)).sum :=
      ((hperm.map (d p)).sum_eq).symm
    have hmem : ∀ le ∈ l, le ∈ (pm p).internal := by
      intro le hle
      exact List.mem_of_mem_filter (hperm.mem_iff.mp hle)
    have e3 : (l.map (d p)).sum = ((G.filter (seen p)).map (D p)).sum := by
      have hG : ∀ ge ∈ G.filter (seen p), ge ∈ G := fun ge h => List.mem_of_mem_filter h
      revert hmem hall
      clear e1 e2 hperm
      revert hG
      generalize G.filter (seen p) = G'
      intro hG hall
      induction hall with
      | nil => intro _; rfl
      | @cons ge le gs ls hs _ ih =>
        intro hmem
        rw [List.map_cons, List.sum_cons, List.map_cons, List.sum_cons,
          ih (fun ge h => hG ge (List.mem_cons_of_mem _ h))
            (fun le h => hmem le (List.mem_cons_of_mem _ h)),
          hd p ge (hG ge (by simp)) le (hmem le (by simp)) hs]
    have e4 : ((G.filter (seen p)).map (D p)).sum = (G.map (D p)).sum := by
      have hs := hp.seen p
      revert hs
      generalize G = G'
      intro hs
      induction G' with
      | nil => rfl
      | cons a L ih =>
        rw [List.filter_cons, List.map_cons, List.sum_cons,
          ← ih (fun ge h => hs ge (List.mem_cons_of_mem _ h))]
        by_cases ha : seen p a = true
        · rw [if_pos ha]; rfl
        · rw [if_neg ha]
          have hno : ¬ (owner a.c1 = p ∨ owner a.c2 = p) := fun h => ha (hs a (by simp) h)
          rw [not_or] at hno
          simp only [hD, if_neg hno.1, if_neg hno.2, add_zero, zero_add]
    rw [e1, e2, e3, e4]
  rw [sum_congr rfl fun p _ => h1 p]
  have h2 : ∀ L : List GEdge, ∑ p, (L.map (D p)).sum = 0 := by
    intro L
    induction L with
    | nil => simp
    | cons a L ih =>
      simp only [List.map_cons, List.sum_cons]
      rw [sum_add_distrib, ih, add_zero]
      simp only [hD, sum_add_distrib, sum_ite_eq, mem_univ, if_true]
      ring
  exact h2 G

theorem interior_partition_zero {n : ℕ} {P : FlowParams} {pm : Fin n → PMesh} {gid : Fin n → ℕ → ℕ}
    {owner : ℕ → Fin n} {G : List GEdge} {seen : Fin n → GEdge → Bool}
    (hp : Partitioned n pm gid owner G seen) (U : ℕ → Cons) {k : Flux → ℝ}
    (hopp : ∀ F : Flux, k F.opp = -k F) :
    ∑ p, ((pm p).internal.map (edgeChange P (pm p) k fun c => U (gid p c))).sum = 0 := by
  apply partition_sum_zero hp (fun ge => k (edgeFlux P (U ge.c1) (U ge.c2) ge.sn ge.cn))
  · intro p e he
    unfold edgeChange
    rw [he]
  · intro p ge _ le hle hs
    obtain ⟨r, hr, hlen, hcase⟩ := hs
    have hl := (hp.valid p).left le hle
    have hrr := (hp.valid p).right le hle r hr
    have hol := hp.owned p le.left hl
    have hor := hp.owned p r hrr
    unfold edgeChange
    rw [hr]
    simp only
    rcases hcase with ⟨h1, h2, h3, h4⟩ | ⟨h1, h2, h3, h4⟩
    · rw [h1] at hol ⊢
      rw [h2] at hor ⊢
      rw [h3, h4, hlen]
      simp only [hol, hor]
    · rw [h1] at hol ⊢
      rw [h2] at hor ⊢
      rw [h3, h4, hlen, edgeFlux_swap, hopp]
      simp only [hol, hor]
      rw [add_comm]
      congr 1
      · split <;> ring
      · split <;> ring

/-- C41. For every mesh, partition into processes, geometry and state: the sum over all cells of the
domain of area times right-hand side is zero for the interior fluxes, for mass and both momenta. Each
process computes the edges of its own cells, so an edge between two processes is computed twice,
possibly seen from opposite sides; the two results cancel exactly. -/
theorem C41_parallel {n : ℕ} {P : FlowParams} {pm : Fin n → PMesh} {gid : Fin n → ℕ → ℕ}
    {owner : ℕ → Fin n} {G : List GEdge} {seen : Fin n → GEdge → Bool}
    (hp : Partitioned n pm gid owner G seen) (U : ℕ → Cons) (f : Fin n → ℕ → Flux)
    (h : ∀ p, applyInterior P (pm p) (fun c => U (gid p c)) (fun _ => Flux.zero) = some (f p)) :
    globalTotal pm Flux.m f = 0 ∧ globalTotal pm Flux.x f = 0 ∧ globalTotal pm Flux.y f = 0 := by
  have key : ∀ k, LinF k → (∀ F : Flux, k F.opp = -k F) → globalTotal pm k f = 0 := by
    intro k hk hopp
    rw [globalTotal_eq, ← interior_partition_zero (P := P) hp U hopp]
    apply sum_congr rfl
    intro p _
    rw [applyInterior_total hk (hp.inj p) (hp.valid p) _ _ _ (h p), ownedTotal_zero hk, zero_add]
  exact ⟨key _ linF_m fun _ => rfl, key _ linF_x fun _ => rfl, key _ linF_y fun _ => rfl⟩

theorem interiorHR_partition_zero {n : ℕ} {P : FlowParams} {pm : Fin n → PMesh} {gid : Fin n → ℕ → ℕ}
    {owner : ℕ → Fin n} {G : List GEdge} {seen : Fin n → GEdge → Bool}
    (hp : Partitioned n pm gid owner G seen) (U : ℕ → Cons) (Z : ℕ → ℝ)
    (hz : ∀ p c, (pm p).zc c = Z (gid p c)) :
    ∑ p, ((pm p).internal.map (edgeChangeHR P (pm p) fun c => U (gid p c))).sum = 0 := by
  apply partition_sum_zero hp
    (fun ge => (edgeFluxHR P (Z ge.c1) (Z ge.c2) (U ge.c1) (U ge.c2) ge.sn ge.cn).m)
  · intro p e he
    unfold edgeChangeHR
    rw [he]
  · intro p ge _ le hle hs
    obtain ⟨r, hr, hlen, hcase⟩ := hs
    have hl := (hp.valid p).left le hle
    have hrr := (hp.valid p).right le hle r hr
    have hol := hp.owned p le.left hl
    have hor := hp.owned p r hrr
    unfold edgeChangeHR
    rw [hr]
    simp only [hz]
    rcases hcase with ⟨h1, h2, h3, h4⟩ | ⟨h1, h2, h3, h4⟩
    · rw [h1] at hol ⊢
      rw [h2] at hor ⊢
      rw [h3, h4, hlen]
      simp only [hol, hor]
    · rw [h1] at hol ⊢
      rw [h2] at hor ⊢
      rw [h3, h4, hlen, edgeFluxHR_swap]
      simp only [hol, hor, Flux.opp]
      rw [add_comm]
      congr 1
      · split <;> ring
      · split <;> ring

/-- C41. With hydrostatic reconstruction the same holds for the volume of water. (Momentum is not
conserved: the bed exerts a force.) -/
theorem C41_parallel_hr {n : ℕ} {P : FlowParams} {pm : Fin n → PMesh} {gid : Fin n → ℕ → ℕ}
    {owner : ℕ → Fin n} {G : List GEdge} {seen : Fin n → GEdge → Bool}
    (hp : Partitioned n pm gid owner G seen) (U : ℕ → Cons) (Z : ℕ → ℝ)
    (hz : ∀ p c, (pm p).zc c = Z (gid p c)) (f : Fin n → ℕ → Flux)
    (h : ∀ p, applyInteriorHR P (pm p) (fun c => U (gid p c)) (fun _ => Flux.zero) = some (f p)) :
    globalTotal pm Flux.m f = 0 := by
  rw [globalTotal_eq, ← interiorHR_partition_zero (P := P) hp U Z hz]
  apply sum_congr rfl
  intro p _
  rw [applyInteriorHR_mass (hp.inj p) (hp.valid p) _ _ _ (h p), ownedTotal_zero linF_m, zero_add]

/-! ### C42 -/

/-- Water leaving the domain per unit time through the boundary edges of a process: length times mass
flux, over the edges of owned cells. -/
noncomputable def outflowRate (P : FlowParams) (pm : PMesh) (u : ℕ → Cons) : ℝ :=
  (pm.boundary.map fun e => if pm.owned e.cell then e.len * (bndFlux P u e).m else 0).sum

/-- Water added per unit time by the external sources to the owned cells of a process. -/
noncomputable def sourceRate (pm : PMesh) (src : ℕ → Flux) : ℝ :=
  ∑ c ∈ range pm.numCells, if pm.owned c then pm.area c * (src (pm.l2o c)).m else 0

/-- One step of the explicit Euler method (`TSEULER`): every process evaluates the right-hand side with
current ghost values and adds `dt` times it to its owned cells. -/
def EulerStep {n : ℕ} (P : FlowParams) (m : FrictionMethod) (hr : Bool) (pm : Fin n → PMesh)
    (gid : Fin n → ℕ → ℕ) (dt : ℝ) (src : Fin n → ℕ → Flux) (mann : Fin n → ℕ → ℝ)
    (U U' : ℕ → Cons) : Prop :=
  ∀ p, ∃ f, rhs P m hr (pm p) dt (src p) (mann p) (fun c => U (gid p c)) = some f ∧
    ∀ c < (pm p).numCells, (pm p).owned c = true →
      (U' (gid p c)).h = (U (gid p c)).h + dt * (f ((pm p).l2o c)).m ∧
      (U' (gid p c)).hu = (U (gid p c)).hu + dt * (f ((pm p).l2o c)).x ∧
      (U' (gid p c)).hv = (U (gid p c)).hv + dt * (f ((pm p).l2o c)).y

theorem rhs_mass {P : FlowParams} {m : FrictionMethod} {hr : Bool} {pm : PMesh} {dt : ℝ}
    {src : ℕ → Flux} {mann : ℕ → ℝ} {u : ℕ → Cons} {f : ℕ → Flux} (hinj : OwnedInj pm)
    (hv : EdgesValid pm) (h : rhs P m hr pm dt src mann u = some f) :
    ownedTotal pm Flux.m f =
      (if hr then (pm.internal.map (edgeChangeHR P pm u)).sum
        else (pm.internal.map (edgeChange P pm Flux.m u)).sum) - outflowRate P pm u +
        sourceRate pm src := by
  unfold rhs at h
  rw [Option.bind_eq_some_iff] at h
  obtain ⟨f1, h1, h⟩ := h
  rw [Option.bind_eq_some_iff] at h
  obtain ⟨fd, h2, h3⟩ := h
  have e3 := applySource_mass hinj u fd f h3
  have e2 := applyBoundary_total linF_m hinj hv u f1 fd h2
  have e1 : ownedTotal pm Flux.m f1 =
      (if hr then (pm.internal.map (edgeChangeHR P pm u)).sum
        else (pm.internal.map (edgeChange P pm Flux.m u)).sum) := by
    cases hr with
    | true =>
      simp only [if_true] at h1 ⊢
      rw [applyInteriorHR_mass hinj hv u _ f1 h1, ownedTotal_zero linF_m, zero_add]
    | false =>
      simp only [Bool.false_eq_true, if_false] at h1 ⊢
      rw [applyInterior_total linF_m hinj hv u _ f1 h1, ownedTotal_zero linF_m, zero_add]
  have e4 : (pm.boundary.map (bndChange P pm Flux.m u)).sum = -outflowRate P pm u := by
    unfold outflowRate
    generalize pm.boundary = L
    induction L with
    | nil => simp
    | cons a L ih =>
      simp only [List.map_cons, List.sum_cons, ih]
      unfold bndChange
      split <;> ring
  rw [e3, e2, e1, e4]
  unfold sourceRate
  unfold ownedTotal
  ring

theorem euler_volume {n : ℕ} {P : FlowParams} {m : FrictionMethod} {hr : Bool} {pm : Fin n → PMesh}
    {gid : Fin n → ℕ → ℕ} {owner : ℕ → Fin n} {G : List GEdge} {seen : Fin n → GEdge → Bool}
    (hp : Partitioned n pm gid owner G seen) (Z : ℕ → ℝ) (hz : ∀ p c, (pm p).zc c = Z (gid p c))
    {dt : ℝ} {src : Fin n → ℕ → Flux} {mann : Fin n → ℕ → ℝ} {U U' : ℕ → Cons}
    (h : EulerStep P m hr pm gid dt src mann U U') :
    globalVolume pm gid U' = globalVolume pm gid U +
      dt * (∑ p, sourceRate (pm p) (src p) -
        ∑ p, outflowRate P (pm p) fun c => U (gid p c)) := by
  choose f hf hU using h
  have hsum : ∑ p, ownedTotal (pm p) Flux.m (f p) =
      ∑ p, sourceRate (pm p) (src p) - ∑ p, outflowRate P (pm p) fun c => U (gid p c) := by
    rw [sum_congr rfl fun p _ => rhs_mass (hp.inj p) (hp.valid p) (hf p)]
    rw [sum_add_distrib, sum_sub_distrib]
    have hzero : ∑ p, (if hr then ((pm p).internal.map (edgeChangeHR P (pm p) fun c => U (gid p c))).sum
        else ((pm p).internal.map (edgeChange P (pm p) Flux.m fun c => U (gid p c))).sum) = 0 := by
      cases hr with
      | true => simp only [if_true]; exact interiorHR_partition_zero hp U Z hz
      | false =>
        simp only [Bool.false_eq_true, if_false]
        exact interior_partition_zero hp U (k := Flux.m) fun _ => rfl
    rw [hzero]
    ring
  rw [← hsum, mul_sum]
  unfold globalVolume
  rw [← sum_add_distrib]
  apply sum_congr rfl
  intro p _
  unfold ownedTotal
  rw [mul_sum, ← sum_add_distrib]
  apply sum_congr rfl
  intro c hc
  by_cases ho : (pm p).owned c = true
  · simp only [ho, if_true]
    rw [(hU p c (mem_range.mp hc) ho).1]
    ring
  · simp [ho]

/-- C42. Over any number of explicit Euler steps, with any time steps, boundary conditions, source
histories, friction method, with or without hydrostatic reconstruction, on any partitioned mesh: the
change of the volume of water is the volume added by the sources minus the volume that left through
the boundary. -/
theorem C42_volume_balance {n : ℕ} {P : FlowParams} {m : FrictionMethod} {hr : Bool}
    {pm : Fin n → PMesh} {gid : Fin n → ℕ → ℕ} {owner : ℕ → Fin n} {G : List GEdge}
    {seen : Fin n → GEdge → Bool} (hp : Partitioned n pm gid owner G seen) (Z : ℕ → ℝ)
    (hz : ∀ p c, (pm p).zc c = Z (gid p c)) (dt : ℕ → ℝ) (src : ℕ → Fin n → ℕ → Flux)
    (mann : ℕ → Fin n → ℕ → ℝ) (U : ℕ → ℕ → Cons) (N : ℕ)
    (h : ∀ i < N, EulerStep P m hr pm gid (dt i) (src i) (mann i) (U i) (U (i + 1))) :
    globalVolume pm gid (U N) = globalVolume pm gid (U 0) +
      ∑ i ∈ range N, dt i * ∑ p, sourceRate (pm p) (src i p) -
      ∑ i ∈ range N, dt i * ∑ p, outflowRate P (pm p) fun c => U i (gid p c) := by
  induction N with
  | zero => simp
  | succ N ih =>
    rw [euler_volume hp Z hz (h N (Nat.lt_succ_self N)),
      ih fun i hi => h i (Nat.lt_succ_of_lt hi), sum_range_succ, sum_range_succ]
    ring

/-! ### Example: two processes sharing one edge, seen from opposite sides -/

/-- Two triangles of area 1/2; process `p` owns cell `p` and has the other one as ghost. Both number
their own cell 0, so they see the edge with opposite normals. Each has a reflecting boundary edge. -/
noncomputable def exMesh (p : Fin 2) : PMesh where
  numCells := 2
  area _ := 1 / 2
  owned c := c == 0
  l2o c := c
  internal := [⟨0, some 1, 1, 0, if p = 0 then 1 else -1⟩]
  boundary := [⟨0, 1, 0, if p = 0 then -1 else 1, .reflecting⟩]
  dzdx _ := 0
  dzdy _ := 0
  zc _ := 0

/-- local to global numbers in the example -/
def exGid (p : Fin 2) (c : ℕ) : ℕ := if p = 0 then c else 1 - c

theorem exPartitioned : Partitioned 2 exMesh exGid (fun c => if c = 0 then 0 else 1)
    [⟨0, 1, 1, 0, 1⟩] (fun _ _ => true) where
  valid p := by
    refine ⟨?_, ?_, ?_, ?_⟩
    · intro e he
      simp only [exMesh, List.mem_singleton] at he
      subst he; simp [exMesh]
    · intro e he r hr
      simp only [exMesh, List.mem_singleton] at he
      subst he
      simp only [Option.some.injEq] at hr
      subst hr; simp [exMesh]
    · intro e he
      simp only [exMesh, List.mem_singleton] at he
      subst he; simp [exMesh]
    · intro c _; simp [exMesh]
  inj p := by intro c _ c' _ _ _ h; exact h
  owned p := by
    intro c hc
    simp only [exMesh] at hc ⊢
    fin_cases p <;> interval_cases c <;> simp [exGid]
  edges p := by
    refine ⟨(exMesh p).internal, by simp [exMesh], ?_⟩
    simp only [exMesh, List.filter_cons, List.filter_nil, if_true]
    refine List.Forall₂.cons ?_ List.Forall₂.nil
    refine ⟨1, rfl, rfl, ?_⟩
    fin_cases p
    · left; simp [exGid]
    · right; simp [exGid]
  seen p ge _ _ := rfl

example (U : ℕ → Cons) (P : FlowParams) (f : Fin 2 → ℕ → Flux)
    (h : ∀ p, applyInterior P (exMesh p) (fun c => U (exGid p c)) (fun _ => Flux.zero) = some (f p)) :
    globalTotal exMesh Flux.m f = 0 :=
  (C41_parallel exPartitioned U f h).1

/-- The hypothesis of the previous example is met for all non-negative depths. -/
theorem exDefined (U : ℕ → Cons) (P : FlowParams) (ht : 0 < P.tinyH) (hU : ∀ c, 0 ≤ (U c).h)
    (p : Fin 2) (f0 : ℕ → Flux) :
    ∃ f, applyInterior P (exMesh p) (fun c => U (exGid p c)) f0 = some f := by
  have hs := C39_interior_defined (tinyH := P.tinyH) P.g P.hAnuga (U (exGid p 0)) (U (exGid p 1))
    (if p = 0 then 1 else -1) 0 ht (hU _) (hU _)
  unfold applyInterior
  simp only [exMesh, List.foldlM_cons, List.foldlM_nil, interiorEdge]
  cases hx : usedFlux P.g P.tinyH (velocities P.tinyH P.hAnuga (U (exGid p 0)))
      (velocities P.tinyH P.hAnuga (U (exGid p 1))) 0 (if p = 0 then 1 else -1) with
  | none => rw [hx] at hs; simp at hs
  | some F => exact ⟨_, rfl⟩

example (U : ℕ → Cons) (P : FlowParams) (ht : 0 < P.tinyH) (hU : ∀ c, 0 ≤ (U c).h) :
    ∃ f, (∀ p, applyInterior P (exMesh p) (fun c => U (exGid p c)) (fun _ => Flux.zero) = some (f p)) ∧
      globalTotal exMesh Flux.m f = 0 := by
  choose f hf using fun p => exDefined U P ht hU p fun _ => Flux.zero
  exact ⟨f, hf, (C41_parallel exPartitioned U f hf).1⟩

/-- One process with three cells in a row. -/
noncomputable def exSerial : PMesh where
  numCells := 3
  area c := c + 1
  owned _ := true
  l2o c := c
  internal := [⟨0, some 1, 1, 0, 1⟩, ⟨2, some 1, 2, 0.6, -0.8⟩]
  boundary := []
  dzdx _ := 0
  dzdy _ := 0
  zc c := c

theorem exSerial_valid : EdgesValid exSerial := by
  refine ⟨?_, ?_, ?_, ?_⟩
  · intro e he
    simp only [exSerial, List.mem_cons, List.not_mem_nil, or_false] at he
    rcases he with rfl | rfl <;> simp [exSerial]
  · intro e he r hr
    simp only [exSerial, List.mem_cons, List.not_mem_nil, or_false] at he
    rcases he with rfl | rfl <;> simp only [Option.some.injEq] at hr <;> subst hr <;> simp [exSerial]
  · intro e he
    simp [exSerial] at he
  · intro c _
    simp only [exSerial]
    positivity

example (P : FlowParams) (u : ℕ → Cons) (f f' : ℕ → Flux) (h : applyInterior P exSerial u f = some f') :
    ∑ c ∈ range 3, exSerial.area c * (f' c).m = ∑ c ∈ range 3, exSerial.area c * (f c).m :=
  (C41_serial (fun _ _ _ _ _ _ h => h) exSerial_valid (fun _ _ => rfl) u f f' h).1

/-! ### The whole right-hand side is defined (C39) -/

theorem foldlM_isSome {α σ : Type} (step : σ → α → Option σ) :
    ∀ (l : List α) (f : σ), (∀ f, ∀ e ∈ l, (step f e).isSome) → (l.foldlM step f).isSome
  | [], _, _ => rfl
  | a :: l, f, H => by
      rw [List.foldlM_cons]
      cases hs : step f a with
      | none => have := H f a (by simp); rw [hs] at this; simp at this
      | some f1 => exact foldlM_isSome step l f1 fun f e he => H f e (List.mem_cons_of_mem _ he)

theorem isSome_map' {α β : Type} {o : Option α} (g : α → β) (h : o.isSome) : (o.map g).isSome := by
  rw [Option.isSome_map]; exact h

theorem applyInterior_isSome {P : FlowParams} (pm : PMesh) {u : ℕ → Cons} (f : ℕ → Flux)
    (ht : 0 < P.tinyH) (hu : ∀ c, 0 ≤ (u c).h) : (applyInterior P pm u f).isSome := by
  apply foldlM_isSome
  intro f e _
  unfold interiorEdge
  split
  · rfl
  · exact isSome_map' _ (C39_interior_defined P.g P.hAnuga _ _ _ _ ht (hu _) (hu _))

theorem applyInteriorHR_isSome {P : FlowParams} (pm : PMesh) {u : ℕ → Cons} (f : ℕ → Flux)
    (ht : 0 < P.tinyH) : (applyInteriorHR P pm u f).isSome := by
  apply foldlM_isSome
  intro f e _
  unfold hrEdge
  split
  · rfl
  · rename_i r _
    split
    · rfl
    · apply isSome_map'
      unfold hrFlux
      split
      · rename_i h
        apply isSome_map'
        rw [C39_roe_defined]
        refine ⟨le_max_left _ _, le_max_left _ _, ?_⟩
        rcases h with h | h
        · exact Or.inl (ne_of_gt (lt_trans ht h))
        · exact Or.inr (ne_of_gt (lt_trans ht h))
      · rfl

theorem applyBoundary_isSome {P : FlowParams} (pm : PMesh) {u : ℕ → Cons} (f : ℕ → Flux)
    (hg : 0 < P.g) (ht : 0 < P.tinyH) (hu : ∀ c, 0 ≤ (u c).h)
    (hb : ∀ e ∈ pm.boundary, ∀ qb, e.bc = .dirichlet qb → 0 ≤ qb.h) :
    (applyBoundary P pm u f).isSome := by
  apply foldlM_isSome
  intro f e he
  unfold boundaryEdge
  split
  · exact isSome_map' _ (C39_boundary_defined P.hAnuga e.bc _ _ _ hg ht (hu _) (hb e he))
  · rfl

theorem friction_isSome {P : FlowParams} (m : FrictionMethod) {dt : ℝ} (n : ℝ) (q : Cons)
    (Fx Fy bx bY : ℝ) (hg : 0 < P.g) (ht : 0 < P.tinyH) (hx : 0 < P.xqThreshold) (hdt : 0 ≤ dt) :
    (friction P m dt n q Fx Fy bx bY).isSome := by
  cases m with
  | semiImplicit =>
    unfold friction frictionSemiImplicit
    simp only
    split
    · rename_i h
      have hh : 0 < q.h := lt_of_lt_of_le ht h
      rw [if_neg]
      · rfl
      · rw [not_or]
        refine ⟨ne_of_gt hh, ne_of_gt ?_⟩
        have hn := mul_self_nonneg n
        generalize n * n = nn at hn
        positivity
    · rfl
  | xq2018 =>
    unfold friction frictionXQ2018
    simp only
    split
    · rename_i h
      have hh : 0 < q.h := lt_of_lt_of_le ht h
      rw [if_neg (ne_of_gt hh)]
      apply isSome_map'
      unfold xqDischarge
      split
      · rfl
      · rename_i h2
        push Not at h2
        rw [if_neg]
        · rfl
        · intro h3
          have : dt * xqLambda P n q.h (q.hu + (Fx - bx) * dt) (q.hv + (Fy - bY) * dt) = 0 := by linarith
          linarith
    · rfl

/-- C39. The whole right-hand side of the PETSc operator is defined (no division by zero, no square root
of a negative number in any term added to a cell) for every mesh and every state with non-negative
depths, with positive `tiny_h` and XQ2018 threshold. -/
theorem C39_rhs_defined {P : FlowParams} (m : FrictionMethod) (hr : Bool) (pm : PMesh) {dt : ℝ}
    (src : ℕ → Flux) (mann : ℕ → ℝ) {u : ℕ → Cons} (hg : 0 < P.g) (ht : 0 < P.tinyH)
    (hx : 0 < P.xqThreshold) (hdt : 0 ≤ dt) (hu : ∀ c, 0 ≤ (u c).h)
    (hb : ∀ e ∈ pm.boundary, ∀ qb, e.bc = .dirichlet qb → 0 ≤ qb.h) :
    (rhs P m hr pm dt src mann u).isSome := by
  unfold rhs
  have h1 : (if hr = true then applyInteriorHR P pm u fun _ => Flux.zero
      else applyInterior P pm u fun _ => Flux.zero).isSome := by
    cases hr
    · exact applyInterior_isSome pm _ ht hu
    · exact applyInteriorHR_isSome pm _ ht
  obtain ⟨f1, e1⟩ := Option.isSome_iff_exists.mp h1
  rw [e1, Option.bind_some]
  obtain ⟨fd, e2⟩ := Option.isSome_iff_exists.mp (applyBoundary_isSome pm f1 hg ht hu hb)
  rw [e2, Option.bind_some]
  apply foldlM_isSome
  intro f c _
  unfold sourceCell
  split
  · exact isSome_map' _ (friction_isSome m _ _ _ _ _ _ hg ht hx hdt)
  · rfl

/-- parameters used in the examples below -/
noncomputable def exParams : FlowParams := ⟨9.806, 1e-7, 0, 1e-10⟩

example (U : ℕ → Cons) (hU : ∀ c, 0 ≤ (U c).h) :
    (rhs exParams .xq2018 false (exMesh 1) 0.5 (fun _ => ⟨1e-3, 0, 0⟩) (fun _ => 0.03)
      fun c => U (exGid 1 c)).isSome := by
  apply C39_rhs_defined <;> try norm_num [exParams]
  · intro c; exact hU _
  · intro e he qb hq
    simp only [exMesh, List.mem_singleton] at he
    subst he
    simp at hq

/-- In the two-process example a step of the explicit Euler method exists from every state with
non-negative depths, so that C42 applies to it. -/
theorem exEuler (m : FrictionMethod) (hr : Bool) (U : ℕ → Cons) (hU : ∀ c, 0 ≤ (U c).h) :
    ∃ U', EulerStep exParams m hr exMesh exGid 0.5 (fun _ _ => ⟨1e-3, 0, 0⟩) (fun _ _ => 0.03) U U' := by
  have hdef : ∀ p, ∃ f, rhs exParams m hr (exMesh p) 0.5 (fun _ => ⟨1e-3, 0, 0⟩) (fun _ => 0.03)
      (fun c => U (exGid p c)) = some f := by
    intro p
    apply Option.isSome_iff_exists.mp
    apply C39_rhs_defined <;> try norm_num [exParams]
    · intro c; exact hU _
    · intro e he qb hq
      simp only [exMesh, List.mem_singleton] at he
      subst he
      simp at hq
  choose f hf using hdef
  refine ⟨fun c => if c = 0 then ⟨(U 0).h + 0.5 * (f 0 0).m, (U 0).hu + 0.5 * (f 0 0).x,
      (U 0).hv + 0.5 * (f 0 0).y⟩
    else ⟨(U 1).h + 0.5 * (f 1 0).m, (U 1).hu + 0.5 * (f 1 0).x, (U 1).hv + 0.5 * (f 1 0).y⟩, ?_⟩
  intro p
  refine ⟨f p, hf p, ?_⟩
  intro c _ ho
  simp only [exMesh, beq_iff_eq] at ho
  subst ho
  fin_cases p
  · exact ⟨rfl, rfl, rfl⟩
  · exact ⟨rfl, rfl, rfl⟩

example (m : FrictionMethod) (hr : Bool) (U : ℕ → Cons) (hU : ∀ c, 0 ≤ (U c).h) :
    ∃ U', globalVolume exMesh exGid U' = globalVolume exMesh exGid U +
      0.5 * ∑ p, sourceRate (exMesh p) (fun _ => ⟨1e-3, 0, 0⟩) -
      0.5 * ∑ p, outflowRate exParams (exMesh p) fun c => U (exGid p c) := by
  obtain ⟨U', h⟩ := exEuler m hr U hU
  have := C42_volume_balance (U := fun i => if i = 0 then U else U') exPartitioned (fun _ => 0)
    (fun _ _ => rfl) (fun _ => 0.5) (fun _ _ _ => ⟨1e-3, 0, 0⟩) (fun _ _ _ => 0.03) 1
    (fun i hi => by
      have : i = 0 := by omega
      subst this
      exact h)
  refine ⟨U', ?_⟩
  simpa using this

example (U : ℕ → Cons) : ∃ f, (∀ p, applyInteriorHR exParams (exMesh p) (fun c => U (exGid p c))
    (fun _ => Flux.zero) = some (f p)) ∧ globalTotal exMesh Flux.m f = 0 := by
  choose f hf using fun p => Option.isSome_iff_exists.mp
    (applyInteriorHR_isSome (P := exParams) (exMesh p) (u := fun c => U (exGid p c))
      (fun _ => Flux.zero) (by norm_num [exParams]))
  exact ⟨f, hf, C41_parallel_hr exPartitioned U (fun _ => 0) (fun _ _ => rfl) f hf⟩

/-- C42 (disagreement). The flux accumulated for the boundary time series is not the flux that changed the
volume: on a Dirichlet boundary with a film of water thinner than `tiny_h` beside a dry cell, the cell
receives nothing, while a non-zero inflow is accumulated (`swe_petsc.c:593` guards the former only). -/
theorem C42_thin_film_violated {g tinyH d : ℝ} (hg : 0 < g) (hd : 0 < d) (hdt : d < tinyH) :
    ∃ F, usedFlux g tinyH (boundaryStates g tinyH 0 (.dirichlet ⟨d, 0, 0⟩) ⟨0, 0, 0⟩ 0 1).1
        (boundaryStates g tinyH 0 (.dirichlet ⟨d, 0, 0⟩) ⟨0, 0, 0⟩ 0 1).2 0 1 = some ⟨0, 0, 0⟩ ∧
      accumulatedFlux g (boundaryStates g tinyH 0 (.dirichlet ⟨d, 0, 0⟩) ⟨0, 0, 0⟩ 0 1).1
        (boundaryStates g tinyH 0 (.dirichlet ⟨d, 0, 0⟩) ⟨0, 0, 0⟩ 0 1).2 0 1 = some F ∧ F.m < 0 := by
  have ht : 0 < tinyH := lt_trans hd hdt
  have e1 : velocities tinyH 0 ⟨0, 0, 0⟩ = ⟨0, 0, 0⟩ := if_pos ht
  have e2 : velocities tinyH 0 ⟨d, 0, 0⟩ = ⟨d, 0, 0⟩ := if_pos hdt
  simp only [boundaryStates, e1, e2]
  have hdef : RoeDefined (0 : ℝ) d := ⟨le_refl 0, le_of_lt hd, by linarith⟩
  refine ⟨roeCombine (sideFlux g ⟨0, 0, 0⟩ 0 1) (sideFlux g ⟨d, 0, 0⟩ 0 1)
    (roeEig g ⟨0, 0, 0⟩ ⟨d, 0, 0⟩ 0 1) 0 1, ?_, ?_, ?_⟩
  · unfold usedFlux
    rw [if_neg]
    simp only [not_not]
    exact ⟨hdt, ht⟩
  · unfold accumulatedFlux roeFlux
    rw [if_pos hdef]
    rfl
  · have hc := roeC_pos hg hdef
    have hw1 : (roeEig g ⟨0, 0, 0⟩ ⟨d, 0, 0⟩ 0 1).w1 = 0.5 * d := by
      simp [roeEig, uperp]
    have hw3 : (roeEig g ⟨0, 0, 0⟩ ⟨d, 0, 0⟩ 0 1).w3 = 0.5 * d := by
      simp [roeEig, uperp]
    have hu : ∀ a : ℝ, roeAvg 0 d 0 0 = 0 := by intro a; unfold roeAvg; simp
    have ha1 : 0 < (roeEig g ⟨0, 0, 0⟩ ⟨d, 0, 0⟩ 0 1).a1 := by
      refine lt_of_lt_of_le ?_ (entropyFix_ge (abs_nonneg _))
      simp only [hu 0, uperp]
      rw [abs_pos]
      intro h
      linarith
    have ha3 : 0 ≤ (roeEig g ⟨0, 0, 0⟩ ⟨d, 0, 0⟩ 0 1).a3 := entropyFix_nonneg (abs_nonneg _)
    simp only [roeCombine, sideFlux, uperp, hw1, hw3]
    have h1 := mul_pos ha1 hd
    have h3 := mul_nonneg ha3 (le_of_lt hd)
    linarith

example : ∃ F, accumulatedFlux 9.806 (boundaryStates 9.806 1e-7 0 (.dirichlet ⟨5e-8, 0, 0⟩) ⟨0, 0, 0⟩ 0
    1).1 (boundaryStates 9.806 1e-7 0 (.dirichlet ⟨5e-8, 0, 0⟩) ⟨0, 0, 0⟩ 0 1).2 0 1 = some F ∧
    F.m < 0 := by
  obtain ⟨F, -, h⟩ := C42_thin_film_violated (g := 9.806) (tinyH := 1e-7) (d := 5e-8) (by norm_num)
    (by norm_num) (by norm_num)
  exact ⟨F, h⟩

/-- C42. On edges where one side is not dry, the accumulated flux is the one that changed the volume. -/
theorem C42_accumulated_partial {g tinyH : ℝ} (L R : Prim) (sn cn : ℝ)
    (h : tinyH ≤ L.h ∨ tinyH ≤ R.h) :
    accumulatedFlux g L R sn cn = usedFlux g tinyH L R sn cn := by
  unfold usedFlux accumulatedFlux
  rw [if_pos]
  rintro ⟨h1, h2⟩
  rcases h with h | h <;> linarith

example : accumulatedFlux 9.806 ⟨1, 0, 0⟩ ⟨0, 0, 0⟩ 0 1 = usedFlux 9.806 1e-7 ⟨1, 0, 0⟩ ⟨0, 0, 0⟩ 0 1 :=
  C42_accumulated_partial _ _ _ _ (Or.inl (by norm_num))

/-! ### C41 with second-order reconstruction -/

/-- `DMLocalToGlobal` with `ADD_VALUES`: every entry of the global vector is the sum of all local entries
that represent it. -/
noncomputable def localToGlobalAdd {n : ℕ} (numCells : Fin n → ℕ) (gid : Fin n → ℕ → ℕ)
    (f : Fin n → ℕ → Flux) (k : Flux → ℝ) (c : ℕ) : ℝ :=
  ∑ p, ∑ i ∈ range (numCells p), if gid p i = c then k (f p i) else 0

theorem local2R_zero {P : FlowParams} {area : ℕ → ℝ} {k : Flux → ℝ} (hk : LinF k) (N : ℕ)
    (es : List REdge) (hl : ∀ e ∈ es, e.left < N) (hr : ∀ e ∈ es, e.right < N)
    (ha : ∀ c < N, area c ≠ 0) (f : ℕ → Flux) (h : applyInterior2R P area es = some f) :
    ∑ c ∈ range N, area c * k (f c) = 0 := by
  have hstep : ∀ (f : ℕ → Flux) (e : REdge) (f' : ℕ → Flux), e ∈ es → interiorEdge2R P area f e = some f' →
      ∑ c ∈ range N, area c * k (f' c) = ∑ c ∈ range N, area c * k (f c) + 0 := by
    intro f e f' he hs
    unfold interiorEdge2R at hs
    simp only [Option.map_eq_some_iff] at hs
    obtain ⟨F, -, hf⟩ := hs
    have hadd : ∀ (f : ℕ → Flux) (i : ℕ) (F : Flux), i < N →
        ∑ c ∈ range N, area c * k (addAt f i F c) = ∑ c ∈ range N, area c * k (f c) + area i * k F := by
      intro f i F hi
      have : ∀ c ∈ range N, area c * k (addAt f i F c) =
          area c * k (f c) + if c = i then area i * k F else 0 := by
        intro c _
        unfold addAt
        by_cases e : c = i
        · subst e
          simp only [if_true, hk.add]
          ring
        · simp [e]
      rw [sum_congr rfl this, sum_add_distrib, sum_ite_eq' (range N) i]
      simp [hi]
    rw [← hf, hadd _ _ _ (hr e he), hadd _ _ _ (hl e he), hk.smul, hk.smul]
    have h1 := ha _ (hl e he)
    have h2 := ha _ (hr e he)
    field_simp
    ring
  have := foldlM_sum (interiorEdge2R P area) (fun f => ∑ c ∈ range N, area c * k (f c)) (fun _ => 0) es
    (fun _ => Flux.zero) f hstep h
  rw [this]
  simp [hk.zero]

/-- C41. Second-order reconstruction: each edge is computed only by the process that owns it, which adds
to both cells (one of which may be a ghost), and the ghost entries are then added to their owners. For
every mesh, partition, and reconstructed states the sums over the domain vanish. -/
theorem C41_second_order {n : ℕ} {P : FlowParams} (N : ℕ) (A : ℕ → ℝ) (numCells : Fin n → ℕ)
    (gid : Fin n → ℕ → ℕ) (area : Fin n → ℕ → ℝ) (es : Fin n → List REdge) (f : Fin n → ℕ → Flux)
    (hgid : ∀ p, ∀ i < numCells p, gid p i < N) (hA : ∀ p, ∀ i < numCells p, area p i = A (gid p i))
    (hA0 : ∀ c < N, A c ≠ 0) (hl : ∀ p, ∀ e ∈ es p, e.left < numCells p)
    (hr : ∀ p, ∀ e ∈ es p, e.right < numCells p)
    (h : ∀ p, applyInterior2R P (area p) (es p) = some (f p)) :
    ∑ c ∈ range N, A c * localToGlobalAdd numCells gid f Flux.m c = 0 ∧
    ∑ c ∈ range N, A c * localToGlobalAdd numCells gid f Flux.x c = 0 ∧
    ∑ c ∈ range N, A c * localToGlobalAdd numCells gid f Flux.y c = 0 := by
  have key : ∀ k, LinF k → ∑ c ∈ range N, A c * localToGlobalAdd numCells gid f k c = 0 := by
    intro k hk
    unfold localToGlobalAdd
    simp only [mul_sum]
    rw [sum_comm]
    apply sum_eq_zero
    intro p _
    rw [sum_comm]
    refine Eq.trans ?_ (local2R_zero hk (numCells p) (es p) (hl p) (hr p)
      (fun c hc => by rw [hA p c hc]; exact hA0 _ (hgid p c hc)) (f p) (h p))
    apply sum_congr rfl
    intro i hi
    rw [mem_range] at hi
    simp only [mul_ite, mul_zero]
    rw [sum_ite_eq (range N) (gid p i)]
    simp only [mem_range, hgid p i hi, if_true]
    rw [hA p i hi]
  exact ⟨key _ linF_m, key _ linF_x, key _ linF_y⟩

example : ∃ f : Fin 2 → ℕ → Flux,
    (∀ p, applyInterior2R exParams (fun _ => 1 / 2)
      (if p = 0 then [⟨0, 1, 1, 0, 1, ⟨2, 1, 0⟩, ⟨1, -1, 0⟩⟩] else []) = some (f p)) ∧
    ∑ c ∈ range 2, (1 / 2 : ℝ) * localToGlobalAdd (fun _ => 2) exGid f Flux.m c = 0 := by
  have hdef : ∀ p : Fin 2, ∃ f, applyInterior2R exParams (fun _ => 1 / 2)
      (if p = 0 then [⟨0, 1, 1, 0, 1, ⟨2, 1, 0⟩, ⟨1, -1, 0⟩⟩] else []) = some f := by
    intro p
    apply Option.isSome_iff_exists.mp
    apply foldlM_isSome
    intro f e _
    unfold interiorEdge2R
    apply isSome_map'
    unfold rStates
    exact C39_interior_defined _ _ _ _ _ _ (by norm_num [exParams]) (le_max_left _ _) (le_max_left _ _)
  choose f hf using hdef
  refine ⟨f, hf, ?_⟩
  refine (C41_second_order (P := exParams) 2 (fun _ => 1 / 2) (fun _ => 2) exGid (fun _ _ => 1 / 2) _ f
    ?_ (fun _ _ _ => rfl) (by norm_num) ?_ ?_ hf).1
  · intro p i hi
    unfold exGid
    split <;> omega
  · intro p e he
    split at he
    · simp only [List.mem_singleton] at he; subst he; norm_num
    · simp at he
  · intro p e he
    split at he
    · simp only [List.mem_singleton] at he; subst he; norm_num
    · simp at he

end RDy
