import Verif.Lemmas.PackedRun
import Verif.Props.SecondOrder
import Verif.Props.Batched
import Mathlib.Tactic

/-!
C109: the second-order interior operator works on arrays in which only the owned edges have a place (packed order), on flat arrays of matrices,
coefficients and gradients, and on arrays kept from one evaluation to the next. The specification is the operator of `SecondOrder.lean`, which
has none of these arrays, on the mesh that the tables describe (`PProc.mproc`), and by C85 the whole mesh.
-/

namespace RDy

open Finset

variable {N : ℕ} {pr : Fin N → PProc} {root : Fin N → ℕ → Fin N × ℕ} {gid : Fin N → ℕ → ℕ} {nes nvs : Fin N → ℕ}

/-! ### Counts -/

/-- The list of internal edges holds edges with two cells, and the number by which the packed arrays are allocated is the number of owned edges in
that list, although the two are computed with different conditions. -/
theorem C109_counts {T : Tables} {ne : ℕ} (hc : T.cellIds.len = 2 * ne) (ho : T.edgeOwned.len = ne)
    (hl : ∀ e < ne, 0 ≤ T.cellIds.val (2 * e)) {ids : List ℕ} (h : listInternal T ne = some ids)
    (hi : ids = (List.range T.internal.len).map T.internal.val) :
    (∀ ie < T.internal.len, T.internal.val ie < ne ∧ 0 ≤ T.cellIds.val (2 * T.internal.val ie + 1)) ∧
    countOwnedInternal T ne = some ((List.range T.internal.len).filter fun ie => T.edgeOwned.val (T.internal.val ie)).length := by
  obtain ⟨ids', a1, a2⟩ := loopM_inv (step := fun (ids : List ℕ) (e : ℕ) =>
      (T.cellIds.get (2 * e)).bind fun l => (T.cellIds.get (2 * e + 1)).bind fun r =>
        some (if r ≥ 0 ∧ l ≥ 0 then ids ++ [e] else ids)) (n := ne) (s := [])
    (fun k ids => ids = (List.range k).filter fun e => decide (T.cellIds.val (2 * e + 1) ≥ 0)) rfl (by
      rintro k hk s rfl
      rw [Arr.get_some (by omega), Option.bind_some, Arr.get_some (by omega), Option.bind_some]
      refine ⟨_, rfl, ?_⟩
      rw [List.range_succ, List.filter_append]
      by_cases hr : T.cellIds.val (2 * k + 1) ≥ 0
      · rw [if_pos ⟨hr, hl k hk⟩, List.filter_cons_of_pos (by simpa using hr)]; rfl
      · rw [if_neg (fun q => hr q.1), List.filter_cons_of_neg (by simpa using hr)]; simp)
  have e1 : ids = ids' := Option.some_injective _ (h.symm.trans a1)
  rw [a2] at e1
  obtain ⟨m, b1, b2⟩ := loopM_inv (step := fun (n : ℕ) (e : ℕ) =>
      (T.cellIds.get (2 * e + 1)).bind fun r =>
        if r ≥ 0 then (T.edgeOwned.get e).map fun w => if w then n + 1 else n else some n) (n := ne) (s := 0)
    (fun k m => m = (((List.range k).filter fun e => decide (T.cellIds.val (2 * e + 1) ≥ 0)).filter T.edgeOwned.val).length) rfl (by
      rintro k hk s rfl
      rw [Arr.get_some (by omega), Option.bind_some]
      by_cases hr : T.cellIds.val (2 * k + 1) ≥ 0
      · rw [if_pos hr, Arr.get_some (by omega)]
        refine ⟨_, rfl, ?_⟩
        dsimp only
        rw [List.range_succ, List.filter_append, List.filter_cons_of_pos (by simpa using hr)]
        by_cases hw : T.edgeOwned.val k = true
        · rw [if_pos hw]; simp [hw]
        · rw [if_neg hw]; simp [hw]
      · rw [if_neg hr]
        refine ⟨_, rfl, ?_⟩
        rw [List.range_succ, List.filter_append, List.filter_cons_of_neg (by simpa using hr)]
        simp)
  refine ⟨fun ie hie => ?_, ?_⟩
  · have hm : T.internal.val ie ∈ ids := by rw [hi]; exact List.mem_map.mpr ⟨ie, List.mem_range.mpr hie, rfl⟩
    rw [e1, List.mem_filter, List.mem_range] at hm
    exact ⟨hm.1, by simpa using hm.2⟩
  · refine Eq.trans (b := some m) b1 ?_
    rw [b2, ← e1, hi, List.filter_map, List.length_map]
    rfl

/-! ### Evaluations -/

theorem applyPacked_spec (h : Procs.Valid pr root gid nes nvs) (P : FlowParams) (l : Limiter) {M : Fin N → Packed}
    (hM : ∀ p, (M p).Ready (pr p)) {u : Fin N → Arr ℝ} (hu : ∀ p, (u p).len = 3 * (pr p).nc) :
    ∃ r, applyPacked P l pr root M u = some r ∧ ∀ p, (r p).1.Ready (pr p) ∧ (r p).2.len = 3 * (pr p).nc ∧ ∀ c i, i < 3 →
      (r p).2.val (3 * c + i) = (List.range (pr p).G.T.internal.len).foldl (fun (x : Num) (ie : ℕ) =>
        x.add (packedTerm P l (pr p).G (u p)
          (fun k => communicated (fun p => (pr p).mproc) gid (fun p => lsGradX (pr p).mproc.ls (compAt (u p) k)) p)
          (fun k => communicated (fun p => (pr p).mproc) gid (fun p => lsGradY (pr p).mproc.ls (compAt (u p) k)) p) c i ie)) (some 0) := by
  obtain ⟨g, a1, a2⟩ := allProcs_spec (f := fun p => gradientsB (pr p).G.T (pr p).nc (M p).coeffs (u p) (M p).grad)
    fun p => gradientsB_spec (h.tables p) (hM p).coeffLen (hM p).coeffs (hu p) (hM p).grad
  obtain ⟨g', b1, b2⟩ := exchangeB_spec h (g := g)
    (X := fun k γ => (gradWrites (fun p => (pr p).mproc) gid fun p => lsGradX (pr p).mproc.ls (compAt (u p) k)).foldl
      (fun (g : ℕ → ℝ) w => Function.update g w.1 w.2) (fun _ => 0) γ)
    (Y := fun k γ => (gradWrites (fun p => (pr p).mproc) gid fun p => lsGradY (pr p).mproc.ls (compAt (u p) k)).foldl
      (fun (g : ℕ → ℝ) w => Function.update g w.1 w.2) (fun _ => 0) γ)
    (fun p i hi => (a2 p).2 i hi) (fun p c hc hw i _ => by
      have x := communicated_owned h (fun p => lsGradX (pr p).mproc.ls (compAt (u p) i)) hc hw p rfl
      have y := communicated_owned h (fun p => lsGradY (pr p).mproc.ls (compAt (u p) i)) hc hw p rfl
      unfold communicated at x y
      rw [x, y, mproc_ls]
      exact ⟨rfl, rfl⟩)
  obtain ⟨r, c1, c2⟩ := allProcs_spec (f := fun p => packedFluxes P l (pr p) (M p) (g' p) (u p))
    fun p => packedFluxes_spec (h.tables p) (h.count p) P l (hM p) (b2 p) (hu p)
  refine ⟨r, ?_, fun p => (c2 p).2⟩
  unfold applyPacked
  rw [a1]
  show (exchangeB pr root g).bind _ = _
  rw [b1]
  exact c1

/-- The operators of a run can be created on every process without an access outside the tables, and what they keep then is ready. -/
theorem C109_create (h : Procs.Valid pr root gid nes nvs) (p : Fin N) :
    ∃ M, createPacked (pr p).G (pr p).nc (pr p).no = some M ∧ M.Ready (pr p) :=
  createPacked_spec (h.tables p) (h.count p)

/-- An evaluation with ready memory, whatever the arrays hold besides normals and coefficients: there is no access outside an array, the memory is
ready for the next one, and the local vectors are those of the edges treated one after the other, without NaN. -/
theorem C109_results (h : Procs.Valid pr root gid nes nvs) {P : FlowParams} (ht : 0 < P.tinyH) (l : Limiter) {M : Fin N → Packed}
    (hM : ∀ p, (M p).Ready (pr p)) {u : Fin N → Arr ℝ} (hu : ∀ p, (u p).len = 3 * (pr p).nc) :
    ∃ (r : Fin N → Packed × Arr Num) (f : Fin N → ℕ → Flux), applyPacked P l pr root M u = some r ∧ ∀ p, (r p).1.Ready (pr p) ∧
      interior2R P l (fun p => (pr p).mproc) gid (fun p => stateAt (u p)) p = some (f p) ∧ (r p).2.len = 3 * (pr p).nc ∧
      ∀ c, (r p).2.val (3 * c) = some (f p c).m ∧ (r p).2.val (3 * c + 1) = some (f p c).x ∧ (r p).2.val (3 * c + 2) = some (f p c).y := by
  obtain ⟨r, a1, a2⟩ := applyPacked_spec h P l hM hu
  have hd := fun p => Option.isSome_iff_exists.mp (C85_defined ht l (fun p => (pr p).mproc) gid (fun p => stateAt (u p)) p)
  choose f hf using hd
  refine ⟨r, f, a1, fun p => ?_⟩
  obtain ⟨e1, e2, e3⟩ := a2 p
  have key : ∀ c, ∀ i < 3, (r p).2.val (3 * c + i) = some ((f p c).comp i) := by
    intro c i hi
    rw [e3 c i hi]
    have := hf p
    unfold interior2R applyInterior2R faceStates at this
    rw [mproc_ls] at this
    refine (congrArg (fun z : Num => List.foldl _ z _) ?_).trans (packed_entry P l (pr p).G (u p) _ _ c i _ (fun _ => Flux.zero) (f p) this)
    exact congrArg some (comp_zero i).symm
  exact ⟨e1, hf p, e2, fun c => ⟨key c 0 (by omega), key c 1 (by omega), key c 2 (by omega)⟩⟩

/-- Together with C85: if the processes divide a mesh and hold its state, the entries of a cell add up, over all processes and places, to the
second-order flux divergence of that cell on the undivided mesh. (Entries beyond the length of an array are never read; that they agree too is
no restriction.) -/
theorem C109_whole_mesh (h : Procs.Valid pr root gid nes nvs) {M : MProblem} {owner : ℕ → Fin N} {seen : Fin N → MEdge → Bool}
    {eowner : MEdge → Fin N} (hD : MDivides M (fun p => (pr p).mproc) gid owner seen eowner) {P : FlowParams} (ht : 0 < P.tinyH)
    (l : Limiter) {A : Fin N → Packed} (hA : ∀ p, (A p).Ready (pr p)) {u : Fin N → Arr ℝ} (hu : ∀ p, (u p).len = 3 * (pr p).nc)
    {U : ℕ → Cons} (hU : ∀ p c, stateAt (u p) c = U (gid p c)) :
    ∃ r, applyPacked P l pr root A u = some r ∧ ∀ γ,
      (∑ p, ∑ c ∈ range (pr p).nc, if gid p c = γ then ((r p).2.val (3 * c)).getD 0 else 0) = M.interior P false l U γ Flux.m ∧
      (∑ p, ∑ c ∈ range (pr p).nc, if gid p c = γ then ((r p).2.val (3 * c + 1)).getD 0 else 0) = M.interior P false l U γ Flux.x ∧
      (∑ p, ∑ c ∈ range (pr p).nc, if gid p c = γ then ((r p).2.val (3 * c + 2)).getD 0 else 0) = M.interior P false l U γ Flux.y := by
  obtain ⟨r, f, a1, a2⟩ := C109_results h ht l hA hu
  refine ⟨r, a1, fun γ => ?_⟩
  have hf : ∀ p, interior2R P l (fun p => (pr p).mproc) gid (fun p c => U (gid p c)) p = some (f p) := by
    intro p
    have : (fun p => stateAt (u p)) = fun (p : Fin N) (c : ℕ) => U (gid p c) := by funext p c; exact hU p c
    rw [← this]
    exact (a2 p).2.1
  refine ⟨?_, ?_, ?_⟩
  · rw [← C85_interior hD P l U f hf γ linF_m]
    refine sum_congr rfl fun p _ => sum_congr rfl fun c _ => ?_
    rw [((a2 p).2.2.2 c).1]; rfl
  · rw [← C85_interior hD P l U f hf γ linF_x]
    refine sum_congr rfl fun p _ => sum_congr rfl fun c _ => ?_
    rw [((a2 p).2.2.2 c).2.1]; rfl
  · rw [← C85_interior hD P l U f hf γ linF_y]
    refine sum_congr rfl fun p _ => sum_congr rfl fun c _ => ?_
    rw [((a2 p).2.2.2 c).2.2]; rfl

/-- A sequence of evaluations is defined, and what it gives depends on the states only: what the operators kept before does not matter. -/
theorem C109_history (h : Procs.Valid pr root gid nes nvs) (P : FlowParams) (l : Limiter) (evals : List (Fin N → Arr ℝ))
    (hu : ∀ u ∈ evals, ∀ p, (u p).len = 3 * (pr p).nc) :
    ∀ (M₁ M₂ : Fin N → Packed), (∀ p, (M₁ p).Ready (pr p)) → (∀ p, (M₂ p).Ready (pr p)) → ∃ M₁' M₂' fs,
      packedEvaluations P l pr root M₁ evals = some (M₁', fs) ∧ packedEvaluations P l pr root M₂ evals = some (M₂', fs) ∧
      fs.length = evals.length ∧ (∀ p, (M₁' p).Ready (pr p)) ∧ ∀ p, (M₂' p).Ready (pr p) := by
  induction evals with
  | nil => intro M₁ M₂ h1 h2; exact ⟨M₁, M₂, [], rfl, rfl, rfl, h1, h2⟩
  | cons u rest ih =>
    intro M₁ M₂ h1 h2
    obtain ⟨a, a1, a2⟩ := applyPacked_spec h P l h1 (hu u (by simp))
    obtain ⟨b, b1, b2⟩ := applyPacked_spec h P l h2 (hu u (by simp))
    have hab : (fun p => (b p).2) = fun p => (a p).2 := by
      funext p
      exact Arr.ext_flat (nd := 3) (by omega) (b2 p).2.1 (a2 p).2.1 fun o i hi => by rw [(b2 p).2.2 o i hi, (a2 p).2.2 o i hi]
    obtain ⟨M₁', M₂', fs, c1, c2, c3, c4, c5⟩ := ih (fun u hm => hu u (by simp [hm])) (fun p => (a p).1) (fun p => (b p).1)
      (fun p => (a2 p).1) (fun p => (b2 p).1)
    refine ⟨M₁', M₂', (fun p => (a p).2) :: fs, ?_, ?_, by simp [c3], c4, c5⟩
    · show (applyPacked P l pr root M₁ u).bind _ = _
      rw [a1]
      show (packedEvaluations P l pr root (fun p => (a p).1) rest).map _ = _
      rw [c1]
      rfl
    · show (applyPacked P l pr root M₂ u).bind _ = _
      rw [b1]
      show (packedEvaluations P l pr root (fun p => (b p).1) rest).map _ = _
      rw [c2, hab]
      rfl

/-! ### Example: the four squares of `SecondOrder.lean` on two processes -/

/-- an edge, for places beyond the list -/
noncomputable def exNoEdge : MEdge := ⟨0, 0, 0, 0, 0, 0, false, 1, 1, 0⟩

/-- Tables for a list of internal edges, followed by one boundary edge at cell 0. -/
noncomputable def exTablesOf (es : List MEdge) (nc : ℕ) (owned : ℕ → Bool) (x y : ℕ → ℝ) : GTables where
  T := { internal := ⟨es.length, fun k => k⟩
         cellIds := ⟨2 * (es.length + 1), fun j => if j = 2 * es.length + 1 then -1 else
           if j % 2 = 0 then ((es.getD (j / 2) exNoEdge).left : ℤ) else ((es.getD (j / 2) exNoEdge).right : ℤ)⟩
         elen := ⟨es.length + 1, fun k => (es.getD k exNoEdge).len⟩
         sn := ⟨es.length + 1, fun k => (es.getD k exNoEdge).sn⟩
         cn := ⟨es.length + 1, fun k => (es.getD k exNoEdge).cn⟩
         edgeOwned := ⟨es.length + 1, fun k => (es.getD k exNoEdge).owned⟩
         area := ⟨nc, fun _ => 1⟩
         owned := ⟨nc, owned⟩
         l2o := ⟨nc, fun c => c⟩ }
  vertexIds := ⟨2 * (es.length + 1), fun j => j⟩
  points := ⟨2 * (es.length + 1), fun j => if j % 2 = 0 then ((es.getD (j / 2) exNoEdge).x0, (es.getD (j / 2) exNoEdge).y0)
    else ((es.getD (j / 2) exNoEdge).x1, (es.getD (j / 2) exNoEdge).y1)⟩
  centroids := ⟨nc, fun c => (x c, y c)⟩

theorem exTablesOf_medge (es : List MEdge) (nc : ℕ) (owned : ℕ → Bool) (x y : ℕ → ℝ) {k : ℕ} (hk : k < es.length) :
    (exTablesOf es nc owned x y).medge k = es.getD k exNoEdge := by
  have a1 : 2 * k ≠ 2 * es.length + 1 := by omega
  have a2 : 2 * k + 1 ≠ 2 * es.length + 1 := by omega
  have a3 : (2 * k) % 2 = 0 := by omega
  have a4 : (2 * k + 1) % 2 = 1 := by omega
  have a5 : (2 * k) / 2 = k := by omega
  have a6 : (2 * k + 1) / 2 = k := by omega
  have hL : (exTablesOf es nc owned x y).L k = (es.getD k exNoEdge).left := by
    unfold GTables.L Tables.leftOf exTablesOf
    dsimp only
    rw [if_neg a1, if_pos a3, a5]; simp
  have hR : (exTablesOf es nc owned x y).R k = (es.getD k exNoEdge).right := by
    unfold GTables.R exTablesOf
    dsimp only
    rw [if_neg a2, if_neg (by omega), a6]; simp
  unfold GTables.medge
  rw [hL, hR]
  unfold exTablesOf GTables.own
  dsimp only
  rw [if_pos a3, if_neg (by omega : ¬ (2 * k + 1) % 2 = 0), a5, a6]

theorem exTablesOf_edges (es : List MEdge) (nc : ℕ) (owned : ℕ → Bool) (x y : ℕ → ℝ) :
    (List.range es.length).map (exTablesOf es nc owned x y).medge = es := by
  apply List.ext_getElem
  · simp
  · intro k h1 h2
    rw [List.getElem_map, List.getElem_range, exTablesOf_medge _ _ _ _ _ h2]
    simp [h2]

theorem exTablesOf_valid {es : List MEdge} {nc n : ℕ} {owned : ℕ → Bool} (x y : ℕ → ℝ) (h0 : 0 < nc)
    (hes : ∀ e ∈ es, e.left < nc ∧ e.right < nc) (ho : ∀ c < nc, owned c = true → c < n) :
    (exTablesOf es nc owned x y).Valid nc n (es.length + 1) (2 * (es.length + 1)) := by
  have hd : ∀ k, (es.getD k exNoEdge).left < nc ∧ (es.getD k exNoEdge).right < nc := by
    intro k
    by_cases hk : k < es.length
    · have : es.getD k exNoEdge = es[k] := by simp [hk]
      rw [this]; exact hes _ (List.getElem_mem hk)
    · have : es.getD k exNoEdge = exNoEdge := by simp [Nat.le_of_not_lt hk]
      rw [this]; exact ⟨h0, h0⟩
  refine ⟨⟨?_, rfl, rfl, rfl, rfl, rfl, rfl, rfl, ?_, ?_, ho⟩, ?_, rfl, rfl, fun j hj => hj, rfl, rfl, fun c _ c' _ _ _ q => q⟩
  · intro e he; exact Nat.lt_succ_of_lt he
  · intro id hid
    unfold exTablesOf
    dsimp only
    rw [if_neg (by omega), if_pos (by omega)]
    exact ⟨by omega, by simpa using (hd _).1⟩
  · intro id hid
    unfold exTablesOf
    dsimp only
    by_cases h : id = es.length
    · left; rw [if_pos (by omega)]
    · right
      rw [if_neg (by omega), if_neg (by omega)]
      exact ⟨by omega, by simpa using (hd _).2⟩
  · intro ie hie
    have : ie < es.length := hie
    unfold exTablesOf
    dsimp only
    rw [if_neg (by omega), if_neg (by omega)]
    omega

/-- Processes 0 and 1 of `exGrid2`; process 1 has two edges that it does not own before two that it owns. -/
noncomputable def exPackedProcs (p : Fin 2) : PProc where
  G := exTablesOf (exGrid2 p).edges (exGrid2 p).pm.numCells (exGrid2 p).pm.owned (exGrid2 p).x (exGrid2 p).y
  nc := (exGrid2 p).pm.numCells
  n := if p = 0 then 1 else 3
  no := 2

/-- where each local cell comes from -/
def exRoot (p : Fin 2) (c : ℕ) : Fin 2 × ℕ :=
  if p = 0 then (if c = 0 then (0, 0) else (1, c - 1)) else if c = 3 then (0, 0) else (1, c)

theorem exPackedProcs_valid : Procs.Valid exPackedProcs exRoot exGridGid (fun p => (exGrid2 p).edges.length + 1)
    (fun p => 2 * ((exGrid2 p).edges.length + 1)) where
  tables p := by
    refine exTablesOf_valid _ _ ?_ (exGrid2_divides.valid p) ?_
    · fin_cases p <;> simp [exGrid2]
    · intro c hc ho
      fin_cases p
      · simp [exGrid2, exPackedProcs] at *; omega
      · simp [exGrid2, exPackedProcs] at *; omega
  count p := by
    fin_cases p <;>
      simp [exPackedProcs, exGrid2, GTables.pos, GTables.own, exTablesOf, List.range_succ]
  root p c hc := by
    fin_cases p
    · have hc' : c < 3 := by simpa [exPackedProcs, exGrid2] using hc
      interval_cases c
      · exact ⟨0, by simp [exPackedProcs, exRoot, exGrid2], by simp [exPackedProcs, exRoot, exGrid2, exTablesOf],
          by simp [exPackedProcs, exRoot, exTablesOf], by simp [exRoot, exGridGid]⟩
      · exact ⟨0, by simp [exPackedProcs, exRoot, exGrid2], by simp [exPackedProcs, exRoot, exGrid2, exTablesOf],
          by simp [exPackedProcs, exRoot, exTablesOf], by simp [exRoot, exGridGid]⟩
      · exact ⟨1, by simp [exPackedProcs, exRoot, exGrid2], by simp [exPackedProcs, exRoot, exGrid2, exTablesOf],
          by simp [exPackedProcs, exRoot, exTablesOf], by simp [exRoot, exGridGid]⟩
    · have hc' : c < 4 := by simpa [exPackedProcs, exGrid2] using hc
      by_cases h3 : c = 3
      · subst h3
        exact ⟨0, by simp [exPackedProcs, exRoot, exGrid2], by simp [exPackedProcs, exRoot, exGrid2, exTablesOf],
          by simp [exPackedProcs, exRoot, exTablesOf], by simp [exRoot, exGridGid]⟩
      · have hc3 : c < 3 := by omega
        exact ⟨c, by simp [exPackedProcs, exRoot, exGrid2, h3]; omega, by simp [exPackedProcs, exRoot, exGrid2, exTablesOf, h3]; omega,
          by simp [exPackedProcs, exRoot, exTablesOf, h3], by simp [exRoot, exGridGid, h3]⟩
  unique p q c hc c' hc' ho ho' hg := by
    fin_cases p <;> fin_cases q <;> simp [exPackedProcs, exGrid2, exTablesOf, exGridGid] at * <;> omega

theorem exPackedProcs_divides : MDivides exGrid (fun p => (exPackedProcs p).mproc) exGridGid (fun γ => if γ = 0 then 0 else 1)
    (fun p e => p == 1 || e.left == 0) (fun e => if e.left = 0 then 0 else 1) := by
  have he : ∀ p, (exPackedProcs p).mproc.edges = (exGrid2 p).edges := fun p => exTablesOf_edges _ _ _ _ _
  refine ⟨fun p e hm => ?_, exGrid2_divides.lt, exGrid2_divides.inj, exGrid2_divides.cover, exGrid2_divides.owned, fun _ _ _ => rfl,
    exGrid2_divides.x, exGrid2_divides.y, fun p => ?_, exGrid2_divides.sees⟩
  · rw [he] at hm
    exact exGrid2_divides.valid p e hm
  · rw [he]
    exact exGrid2_divides.edges p

/-- water of depth 1, 2, 3, 4 in the four squares -/
noncomputable def exDepths (γ : ℕ) : Cons := ⟨γ + 1, 0.5, 0⟩

/-- the local solution vectors -/
noncomputable def exPackedU (p : Fin 2) : Arr ℝ := ⟨3 * (exPackedProcs p).nc, fun j =>
  if j % 3 = 0 then (exDepths (exGridGid p (j / 3))).h else if j % 3 = 1 then (exDepths (exGridGid p (j / 3))).hu
  else (exDepths (exGridGid p (j / 3))).hv⟩

theorem exPackedU_state (p : Fin 2) (c : ℕ) : stateAt (exPackedU p) c = exDepths (exGridGid p c) := by
  unfold stateAt exPackedU
  dsimp only
  have a1 : (3 * c) / 3 = c := by omega
  have a2 : (3 * c + 1) / 3 = c := by omega
  have a3 : (3 * c + 2) / 3 = c := by omega
  rw [if_pos (by omega), if_neg (by omega : ¬ (3 * c + 1) % 3 = 0), if_pos (by omega : (3 * c + 1) % 3 = 1),
    if_neg (by omega : ¬ (3 * c + 2) % 3 = 0), if_neg (by omega : ¬ (3 * c + 2) % 3 = 1), a1, a2, a3]

/-- the process 1 of the example: four internal edges, two of them owned -/
example : countOwnedInternal (exPackedProcs 1).G.T 5 = some 2 := by
  have h := C109_counts (T := (exPackedProcs 1).G.T) (ne := 5) (by simp [exPackedProcs, exTablesOf, exGrid2])
    (by simp [exPackedProcs, exTablesOf, exGrid2]) (fun e he => ((exPackedProcs_valid.tables 1).T.left e (by simpa [exGrid2] using he)).1)
    (ids := [0, 1, 2, 3]) (by
      simp [listInternal, loopM, exPackedProcs, exTablesOf, exGrid2, Arr.get])
    (by simp [exPackedProcs, exTablesOf, exGrid2, List.range_succ])
  rw [h.2]
  simp [exPackedProcs, exTablesOf, exGrid2, List.range_succ]

example (p : Fin 2) : ∃ M, createPacked (exPackedProcs p).G (exPackedProcs p).nc 2 = some M ∧ M.Ready (exPackedProcs p) :=
  C109_create exPackedProcs_valid p

/-- the entries of cell 0, which process 0 owns and process 1 has as a ghost -/
example (l : Limiter) : ∃ (M : Fin 2 → Packed) (r : Fin 2 → Packed × Arr Num), (∀ p, createPacked (exPackedProcs p).G (exPackedProcs p).nc 2 = some (M p)) ∧
    applyPacked exP l exPackedProcs exRoot M exPackedU = some r ∧
    (∑ p, ∑ c ∈ range (exPackedProcs p).nc, if exGridGid p c = 0 then ((r p).2.val (3 * c)).getD 0 else 0) =
      exGrid.interior exP false l exDepths 0 Flux.m := by
  choose M hM using fun p => C109_create exPackedProcs_valid p
  obtain ⟨r, h1, h2⟩ := C109_whole_mesh exPackedProcs_valid exPackedProcs_divides (P := exP) (by norm_num [exP]) l (fun p => (hM p).2)
    (u := exPackedU) (fun _ => rfl) exPackedU_state
  exact ⟨M, r, fun p => (hM p).1, h1, (h2 0).1⟩

example (l : Limiter) : ∃ (M : Fin 2 → Packed) (r : Fin 2 → Packed × Arr Num) (f : Fin 2 → ℕ → Flux), (∀ p, (M p).Ready (exPackedProcs p)) ∧
    applyPacked exP l exPackedProcs exRoot M exPackedU = some r ∧ (r 1).2.val 7 = some (f 1 2).x := by
  choose M hM using fun p => C109_create exPackedProcs_valid p
  obtain ⟨r, f, h1, h2⟩ := C109_results exPackedProcs_valid (P := exP) (by norm_num [exP]) l (fun p => (hM p).2) (u := exPackedU) (fun _ => rfl)
  exact ⟨M, r, f, fun p => (hM p).2, h1, ((h2 1).2.2.2 2).2.1⟩

/-- the second evaluation gives the same as the first -/
example (l : Limiter) : ∃ (M M' : Fin 2 → Packed) (fs : List (Fin 2 → Arr Num)) (A B : Fin 2 → Packed),
    (∀ p, createPacked (exPackedProcs p).G (exPackedProcs p).nc 2 = some (M p)) ∧
    packedEvaluations exP l exPackedProcs exRoot M [exPackedU] = some (A, fs) ∧
    packedEvaluations exP l exPackedProcs exRoot A [exPackedU] = some (B, fs) ∧ M' = A := by
  choose M hM using fun p => C109_create exPackedProcs_valid p
  obtain ⟨A, -, fs, h1, -, -, h4, -⟩ := C109_history exPackedProcs_valid exP l [exPackedU] (by simp [exPackedU]) M M (fun p => (hM p).2)
    (fun p => (hM p).2)
  obtain ⟨A', B, fs', k1, k2, -⟩ := C109_history exPackedProcs_valid exP l [exPackedU] (by simp [exPackedU]) M A (fun p => (hM p).2) h4
  rw [h1] at k1
  cases k1
  exact ⟨M, A, fs, A, B, fun p => (hM p).1, h1, k2, rfl⟩

end RDy
