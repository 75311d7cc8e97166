import Verif.Model.MmsRun
import Verif.Props.Mms
import Verif.Props.Data
import Verif.Props.Time

/-!
C100: a run with manufactured solutions is fed with the manufactured solution: the vertices lie on its bathymetry, the
boundary values and sources before every step are its values in the middle of the step, the roughness is its
roughness; the result is compared with its value at the time reached, and the levels of a study are the levels asked
for.

Specification: the fields `h`, `u`, `v`, `c`, `S`, `T`, `z`, `n` themselves, evaluated at positions and times.
-/

namespace RDy

/-! ### Bathymetry -/

/-- C100 (bathymetry). With three coordinates per vertex, afterwards the elevation of every vertex is the manufactured
bathymetry at its position, and the position is unchanged. -/
theorem C100_bathymetry_partial (numVertices : ℕ) (z : ℝ → ℝ → ℝ) (coords : ℕ → ℝ) :
    ∃ a, mmsSnap 3 numVertices z coords = .ok a ∧ ∀ v < numVertices,
      a (3 * v) = coords (3 * v) ∧ a (3 * v + 1) = coords (3 * v + 1) ∧
      a (3 * v + 2) = z (coords (3 * v)) (coords (3 * v + 1)) := by
  have key : ∀ n, ∀ k,
      ((List.range n).foldl (fun a v => Function.update a (3 * v + 2) (z (a (3 * v)) (a (3 * v + 1)))) coords) k =
        if k < 3 * n ∧ k % 3 = 2 then z (coords (k - 2)) (coords (k - 1)) else coords k := by
    intro n
    induction n with
    | zero => intro k; rw [if_neg (by omega)]; rfl
    | succ n ih =>
      intro k
      rw [List.range_succ, List.foldl_append, List.foldl_cons, List.foldl_nil]
      by_cases hk : k = 3 * n + 2
      · subst hk
        rw [Function.update_self, ih, ih, if_neg (by omega), if_neg (by omega), if_pos (by omega)]
        rfl
      · rw [Function.update_of_ne hk, ih]
        by_cases h : k < 3 * n ∧ k % 3 = 2
        · rw [if_pos h, if_pos (by omega)]
        · rw [if_neg h, if_neg (by omega)]
  unfold mmsSnap
  rw [if_pos (fun v hv => by omega)]
  refine ⟨_, rfl, fun v hv => ⟨?_, ?_, ?_⟩⟩
  · rw [key, if_neg (by omega)]
  · rw [key, if_neg (by omega)]
  · rw [key, if_pos (by omega), show 3 * v + 2 - 2 = 3 * v by omega, show 3 * v + 2 - 1 = 3 * v + 1 by omega]

example : ∃ a, mmsSnap 3 2 (fun x y => x + 10 * y) (fun k => k) = .ok a ∧ a 5 = 43 := by
  obtain ⟨a, h, h1⟩ := C100_bathymetry_partial 2 (fun x y => x + 10 * y) fun k => k
  refine ⟨a, h, ?_⟩
  have := (h1 1 (by norm_num)).2.2
  norm_num at this
  exact this

/-- C100 fails for meshes with two coordinates per vertex, which the rest of the code supports
(`/repo/src/rdymesh.c:298-300`): the elevation is written past the entries of the vertex, of the last vertex past the end
of the array. -/
theorem C100_bathymetry_violated (numVertices : ℕ) (hv : 0 < numVertices) (z : ℝ → ℝ → ℝ) (coords : ℕ → ℝ) :
    mmsSnap 2 numVertices z coords = .ub := by
  unfold mmsSnap
  rw [if_neg]
  intro h
  have := h (numVertices - 1) (by omega)
  omega

example : mmsSnap 2 4 (fun _ _ => 1) (fun _ => 0) = .ub := C100_bathymetry_violated 4 (by norm_num) _ _

/-! ### Boundary values -/

theorem edgeArray_getD (m : ℕ) (edges : List (ℝ × ℝ)) (val : ℕ → ℝ × ℝ → ℝ) (e : ℕ) (he : e < edges.length) (c : ℕ)
    (hc : c < m) : (edgeArray m edges val).getD (m * e + c) 0 = val c edges[e] := by
  unfold edgeArray
  induction edges generalizing e with
  | nil => simp at he
  | cons x xs ih =>
    rw [List.flatMap_cons]
    cases e with
    | zero =>
      rw [List.getD_append _ _ _ _ (by simpa using hc), List.getD_eq_getElem _ _ (by simpa using hc)]
      simp
    | succ e =>
      have hl : ((List.range m).map fun c => val c x).length = m := by simp
      rw [List.getD_append_right _ _ _ _ (by rw [hl, Nat.mul_succ]; omega), hl,
        show m * (e + 1) + c - m = m * e + c by rw [Nat.mul_succ]; omega, ih e (by simpa using he)]
      simp

/-- Specification: component `j` of the manufactured solution at position `x` and time `t`; the components are depth,
discharges, then sediment classes, then salinity, then temperature as far as they are on. -/
def IsManufactured (p : Phys) (F : MmsFields) (s : MmsScalars) (x : ℝ × ℝ) (t : ℝ) (w : ℕ → ℝ) : Prop :=
  w 0 = F.h x.1 x.2 t ∧ w 1 = F.h x.1 x.2 t * F.u x.1 x.2 t ∧ w 2 = F.h x.1 x.2 t * F.v x.1 x.2 t ∧
  (∀ i < p.numClasses, w (3 + i) = F.h x.1 x.2 t * F.c i x.1 x.2 t) ∧
  (p.salinityOn = true → w (3 + p.numClasses) = F.h x.1 x.2 t * s.S x.1 x.2 t) ∧
  (p.heatOn = true → w (3 + p.numClasses + if p.salinityOn then 1 else 0) = F.h x.1 x.2 t * s.T x.1 x.2 t)

theorem mmsEnforceOne_spec (p : Phys) (bnds : List BndInfo) (F : MmsFields) (s : MmsScalars) (t : ℝ) (b : ℕ)
    (edges : List (ℝ × ℝ)) (hb : bnds[b]? = some (mmsBnd p edges.length)) (data : ℕ → ℕ → ℝ) :
    ∃ d, mmsEnforceOne p bnds F s t b edges data = .ok d ∧
      (∀ e (he : e < edges.length), IsManufactured p F s edges[e] t fun j => d b (p.total * e + j)) ∧
      ∀ b' ≠ b, d b' = data b' := by
  obtain ⟨d1, e1, f1, -, h1⟩ := C27_set_partial p bnds .flow b _ hb rfl trivial
    (edgeArray 3 edges (mmsFlowAt F t)) data
  -- sediment
  have hs : ∃ d2, mmsEnforceFlow p bnds F t b edges data = .ok d2 ∧
      (∀ e < edges.length, ∀ i < p.numClasses, d2 b (p.total * e + (3 + i)) =
        (edgeArray p.numClasses edges fun i e => F.h e.1 e.2 t * F.c i e.1 e.2 t).getD (p.numClasses * e + i) 0) ∧
      (∀ e, ∀ j < p.total, (j < 3 ∨ 3 + p.numClasses ≤ j) → d2 b (p.total * e + j) = d1 b (p.total * e + j)) ∧
      ∀ b' ≠ b, d2 b' = d1 b' := by
    have e1' : setFlowDirichlet p bnds b edges.length 3 (edgeArray 3 edges (mmsFlowAt F t)) data = .ok d1 := e1
    unfold mmsEnforceFlow
    rw [e1']
    dsimp only
    by_cases hn : 0 < p.numClasses
    · rw [if_pos hn]
      obtain ⟨d2, e2, f2, g2, h2⟩ := C27_set_partial p bnds .sediment b _ hb rfl trivial
        (edgeArray p.numClasses edges fun i e => F.h e.1 e.2 t * F.c i e.1 e.2 t) d1
      exact ⟨d2, e2, f2, g2, h2⟩
    · rw [if_neg hn]
      exact ⟨d1, rfl, fun e _ i hi => absurd hi (by omega), fun _ _ _ _ => rfl, fun _ _ => rfl⟩
  obtain ⟨d2, e2, f2, g2, h2⟩ := hs
  -- salinity
  have hsal : ∃ d3, mmsEnforceSalinity p bnds F s t b edges d2 = .ok d3 ∧
      (p.salinityOn = true → ∀ e < edges.length, d3 b (p.total * e + (3 + p.numClasses)) =
        (edges.map fun e => F.h e.1 e.2 t * s.S e.1 e.2 t).getD e 0) ∧
      (∀ e, ∀ j < p.total, (j < 3 + p.numClasses ∨ 3 + p.numClasses + (if p.salinityOn then 1 else 0) ≤ j) →
        d3 b (p.total * e + j) = d2 b (p.total * e + j)) ∧
      ∀ b' ≠ b, d3 b' = d2 b' := by
    unfold mmsEnforceSalinity
    by_cases hon : p.salinityOn = true
    · rw [if_pos hon]
      obtain ⟨d3, e3, f3, g3, h3⟩ := C27_set_partial p bnds .salinity b _ hb
        (by simp [BKind.cond, mmsBnd, hon]) hon (edges.map fun e => F.h e.1 e.2 t * s.S e.1 e.2 t) d2
      refine ⟨d3, e3, fun _ e he => ?_, g3, h3⟩
      have := f3 e he 0 (by simp [BKind.comps, hon])
      simpa [BKind.comps, hon] using this
    · rw [if_neg hon]
      exact ⟨d2, rfl, fun h => absurd h hon, fun _ _ _ _ => rfl, fun _ _ => rfl⟩
  obtain ⟨d3, e3, f3, g3, h3⟩ := hsal
  -- temperature
  have hheat : ∃ d4, mmsEnforceHeat p bnds F s t b edges d3 = .ok d4 ∧
      (p.heatOn = true → ∀ e < edges.length,
        d4 b (p.total * e + (3 + p.numClasses + if p.salinityOn then 1 else 0)) =
        (edges.map fun e => F.h e.1 e.2 t * s.T e.1 e.2 t).getD e 0) ∧
      (∀ e, ∀ j < p.total, j < 3 + p.numClasses + (if p.salinityOn then 1 else 0) →
        d4 b (p.total * e + j) = d3 b (p.total * e + j)) ∧
      ∀ b' ≠ b, d4 b' = d3 b' := by
    unfold mmsEnforceHeat
    by_cases hon : p.heatOn = true
    · rw [if_pos hon]
      obtain ⟨d4, e4, f4, g4, h4⟩ := C27_set_partial p bnds .temperature b _ hb
        (by simp [BKind.cond, mmsBnd, hon]) hon (edges.map fun e => F.h e.1 e.2 t * s.T e.1 e.2 t) d3
      refine ⟨d4, e4, fun _ e he => ?_, fun e j hj hlt => g4 e j hj (Or.inl hlt), h4⟩
      have := f4 e he 0 (by simp [BKind.comps, hon])
      simpa [BKind.comps, hon] using this
    · rw [if_neg hon]
      exact ⟨d3, rfl, fun h => absurd h hon, fun _ _ _ _ => rfl, fun _ _ => rfl⟩
  obtain ⟨d4, e4, f4, g4, h4⟩ := hheat
  have htot : p.total = 3 + p.numClasses + (if p.salinityOn then 1 else 0) + (if p.heatOn then 1 else 0) := rfl
  refine ⟨d4, ?_, ?_, fun b' hb' => by rw [h4 b' hb', h3 b' hb', h2 b' hb', h1 b' hb']⟩
  · unfold mmsEnforceOne
    rw [e2]
    unfold Res.andThen
    dsimp only
    rw [e3]
    exact e4
  · intro e he
    have flow : ∀ c < 3, d4 b (p.total * e + c) = mmsFlowAt F t c edges[e] := by
      intro c hc
      rw [g4 e c (by omega) (by omega), g3 e c (by omega) (Or.inl (by omega)), g2 e c (by omega) (Or.inl hc)]
      have := f1 e he c hc
      simp only [BKind.comps, Nat.zero_add] at this
      rw [this, edgeArray_getD 3 edges _ e he c hc]
    refine ⟨?_, ?_, ?_, ?_, ?_, ?_⟩
    · simpa [mmsFlowAt] using flow 0 (by norm_num)
    · simpa [mmsFlowAt] using flow 1 (by norm_num)
    · simpa [mmsFlowAt] using flow 2 (by norm_num)
    · intro i hi
      dsimp only
      rw [g4 e _ (by omega) (by omega), g3 e _ (by omega) (Or.inl (by omega)), f2 e he i hi,
        edgeArray_getD _ edges _ e he i hi]
    · intro hon
      dsimp only
      rw [g4 e _ (by rw [htot, if_pos hon]; omega) (by rw [if_pos hon]; omega), f3 hon e he,
        List.getD_eq_getElem _ _ (by simpa using he)]
      simp
    · intro hon
      dsimp only
      rw [f4 hon e he, List.getD_eq_getElem _ _ (by simpa using he)]
      simp

/-- C100 (boundaries). `RDyMMSEnforceBoundaryConditions` succeeds, and afterwards the values at every edge of every
boundary are those of the manufactured solution at the centroid of the edge, in every component. -/
theorem C100_boundaries (p : Phys) (F : MmsFields) (s : MmsScalars) (t : ℝ) (bs : List (List (ℝ × ℝ)))
    (data : ℕ → ℕ → ℝ) :
    ∃ d, mmsEnforceFrom p (bs.map fun es => mmsBnd p es.length) F s t 0 bs data = .ok d ∧
      ∀ b (hb : b < bs.length), ∀ e (he : e < bs[b].length),
        IsManufactured p F s bs[b][e] t fun j => d b (p.total * e + j) := by
  have key : ∀ (l : List (List (ℝ × ℝ))) (k : ℕ) (data : ℕ → ℕ → ℝ), (∀ i (hi : i < l.length), bs[k + i]? = some l[i]) →
      ∃ d, mmsEnforceFrom p (bs.map fun es => mmsBnd p es.length) F s t k l data = .ok d ∧
        (∀ i (hi : i < l.length), ∀ e (he : e < l[i].length),
          IsManufactured p F s l[i][e] t fun j => d (k + i) (p.total * e + j)) ∧
        ∀ b < k, d b = data b := by
    intro l
    induction l with
    | nil => intro k data _; exact ⟨data, rfl, fun i hi => absurd hi (by simp), fun _ _ => rfl⟩
    | cons x xs ih =>
      intro k data hl
      have hx : bs[k]? = some x := hl 0 (by simp)
      obtain ⟨d1, e1, f1, h1⟩ := mmsEnforceOne_spec p (bs.map fun es => mmsBnd p es.length) F s t k x
        (by rw [List.getElem?_map, hx]; rfl) data
      obtain ⟨d2, e2, f2, h2⟩ := ih (k + 1) d1 (fun i hi => by
        have := hl (i + 1) (by simpa using hi)
        rw [show k + 1 + i = k + (i + 1) by omega, this]
        rfl)
      refine ⟨d2, ?_, ?_, fun b hb => by rw [h2 b (by omega), h1 b (by omega)]⟩
      · unfold mmsEnforceFrom
        rw [e1]
        exact e2
      · intro i hi e he
        cases i with
        | zero =>
          have := f1 e he
          simp only [Nat.add_zero]
          rw [h2 k (by omega)]
          exact this
        | succ i =>
          have := f2 i (by simpa using hi) e he
          rw [show k + (i + 1) = k + 1 + i by omega]
          exact this
  obtain ⟨d, e, f, -⟩ := key bs 0 data (fun i hi => by rw [Nat.zero_add, List.getElem?_eq_getElem hi])
  refine ⟨d, e, fun b hb e he => ?_⟩
  have := f b hb e he
  rw [Nat.zero_add] at this
  exact this

example (F : MmsFields) (s : MmsScalars) (t : ℝ) := C100_boundaries ⟨2, true, true⟩ F s t [[(0, 1), (0, 2)], [], [(3, 4)]]
  fun _ _ => 0

/-- C100 (before a step). If the region with ID 1 consists of all owned cells, a step from `t` with step `dt` starts with
the values of the manufactured solution at every boundary edge, and with its sources of water, momentum and sediment in
every owned cell, all in the middle of the step. Missing: sources of salinity and temperature, other regions
(`C92_region_violated`, `C92_several_regions`, `C100_salinity_violated`). -/
theorem C100_before_step_partial (p : Phys) (bs : List (List (ℝ × ℝ))) (regions : List SrcRegion) (r : SrcRegion)
    (hr : r ∈ regions) (hid : r.id = 1) (huniq : ∀ s ∈ regions, s.id = 1 → s = r) (pm : PMesh)
    (hown : r.owned = (mmsOwned pm).map pm.l2o) (hnd : r.owned.Nodup) (cent : ℕ → ℝ × ℝ) (F : MmsFields)
    (s : MmsScalars) (t dt : ℝ) (bdata : ℕ → ℕ → ℝ) (src : ℕ → ℝ) :
    ∃ d a, mmsBefore p bs regions pm cent F s t dt bdata src = .ok (d, a) ∧
      (∀ b (hb : b < bs.length), ∀ e (he : e < bs[b].length),
        IsManufactured p F s bs[b][e] (t + dt / 2) fun j => d b (p.total * e + j)) ∧
      ∀ c < pm.numCells, pm.owned c = true →
        a (p.total * pm.l2o c) = (mmsSource F (cent c).1 (cent c).2 (t + dt / 2)).m ∧
        a (p.total * pm.l2o c + 1) = (mmsSource F (cent c).1 (cent c).2 (t + dt / 2)).x ∧
        a (p.total * pm.l2o c + 2) = (mmsSource F (cent c).1 (cent c).2 (t + dt / 2)).y ∧
        ∀ i < p.numClasses, a (p.total * pm.l2o c + (3 + i)) = mmsSediment F i (cent c).1 (cent c).2 (t + dt / 2) := by
  obtain ⟨d, e, f⟩ := C100_boundaries p F s (t + dt / 2) bs bdata
  obtain ⟨a, e', f'⟩ := C92_sources_partial p.total p.numClasses (by unfold Phys.total; omega) regions r hr hid huniq pm
    hown hnd cent F t dt src
  refine ⟨d, a, ?_, f, fun c hc ho => ?_⟩
  · unfold mmsPreStep at e'
    unfold mmsBefore
    rw [e', show t + 0.5 * dt = t + dt / 2 by ring, e]
    rfl
  · obtain ⟨h1, h2, h3, h4, -⟩ := f' c hc ho
    exact ⟨h1, h2, h3, h4⟩

example (s : MmsScalars) (t dt : ℝ) := C100_before_step_partial ⟨2, true, false⟩ [[(0, 1), (0, 2)]] [⟨1, [0, 1]⟩]
  ⟨1, [0, 1]⟩ (by simp) rfl (by simp) exPMmms (by decide +kernel) (by decide +kernel) (fun c => (c, 0)) exMms s t dt
  (fun _ _ => 0) fun _ => 0

/-- C100 fails for salinity (and likewise for temperature): its source keeps the value it had (0), whatever the
manufactured salinity. In still water of depth 1, where nothing moves, a salinity that grows like the time needs a source
of 1: the balance `∂(hS)/∂t = source` does not hold. -/
theorem C100_salinity_violated (bs : List (List (ℝ × ℝ))) (regions : List SrcRegion) (r : SrcRegion)
    (hr : r ∈ regions) (hid : r.id = 1) (huniq : ∀ s ∈ regions, s.id = 1 → s = r) (pm : PMesh)
    (hown : r.owned = (mmsOwned pm).map pm.l2o) (hnd : r.owned.Nodup) (cent : ℕ → ℝ × ℝ) (F : MmsFields)
    (hF : ∀ x y t, F.h x y t = 1 ∧ F.u x y t = 0 ∧ F.v x y t = 0) (t dt : ℝ) (bdata : ℕ → ℕ → ℝ) (c : ℕ)
    (hc : c < pm.numCells) (ho : pm.owned c = true) :
    ∃ (s : MmsScalars) (d : ℕ → ℕ → ℝ) (a : ℕ → ℝ),
      mmsBefore ⟨0, true, false⟩ bs regions pm cent F s t dt bdata (fun _ => 0) = .ok (d, a) ∧
      ¬ HasDerivAt (fun τ => F.h (cent c).1 (cent c).2 τ * s.S (cent c).1 (cent c).2 τ) (a (4 * pm.l2o c + 3))
        (t + dt / 2) := by
  obtain ⟨d, e, -⟩ := C100_boundaries ⟨0, true, false⟩ F ⟨fun _ _ τ => τ, fun _ _ _ => 0⟩ (t + dt / 2) bs bdata
  obtain ⟨a, e', f'⟩ := C92_sources_partial (Phys.total ⟨0, true, false⟩) 0 (by decide) regions r hr hid huniq pm
    hown hnd cent F t dt fun _ => 0
  refine ⟨⟨fun _ _ τ => τ, fun _ _ _ => 0⟩, d, a, ?_, ?_⟩
  · unfold mmsPreStep at e'
    unfold mmsBefore
    rw [e', show t + 0.5 * dt = t + dt / 2 by ring, e]
    rfl
  · have h0 : a (4 * pm.l2o c + 3) = 0 := (f' c hc ho).2.2.2.2 3 (by norm_num) (by decide)
    rw [h0]
    intro h
    have h' : HasDerivAt (fun τ : ℝ => τ) 0 (t + dt / 2) := by
      refine h.congr_of_eventuallyEq (Filter.Eventually.of_forall fun τ => ?_)
      simp only [(hF _ _ _).1, one_mul]
    have := h'.unique (hasDerivAt_id (t + dt / 2))
    exact zero_ne_one this

/-- Still water of depth 1. -/
noncomputable def exStill : MmsFields :=
  ⟨fun _ _ _ => 1, fun _ _ _ => 0, fun _ _ _ => 0, fun _ _ _ => 0, fun _ _ _ => 0, fun _ _ _ => 0, fun _ _ _ => 0,
   fun _ _ _ => 0, fun _ _ _ => 0, fun _ _ _ => 0, fun _ _ _ => 0, fun _ _ _ => 0, fun _ _ => 0, fun _ _ => 0,
   fun _ _ => 0, fun _ _ => 0, fun _ _ _ _ => 0, fun _ _ _ _ => 0, fun _ _ _ _ => 0, fun _ _ _ _ => 0⟩

example (t dt : ℝ) := C100_salinity_violated [[(0, 1), (0, 2)]] [⟨1, [0, 1]⟩] ⟨1, [0, 1]⟩ (by simp) rfl (by simp) exPMmms
  (by decide +kernel) (by decide +kernel) (fun c => (c, 0)) exStill (fun _ _ _ => ⟨rfl, rfl, rfl⟩) t dt
  (fun _ _ => 0) 1 (by decide) (by decide)

/-! ### Roughness -/

theorem restore_one (owned : List ℕ) (hnd : owned.Nodup) (vals : ℕ → ℕ → ℝ) (data : ℕ → ℝ) :
    (∀ i (hi : i < owned.length), restoreRegionData 1 owned vals data owned[i] = vals 0 i) ∧
    ∀ o ∉ owned, restoreRegionData 1 owned vals data o = data o := by
  unfold restoreRegionData
  simp only [List.range_one, List.foldl_cons, List.foldl_nil, one_mul, Nat.add_zero]
  refine ⟨fun i hi => ?_, fun o ho => ?_⟩
  · have hmem : (owned[i], i) ∈ owned.zipIdx := by
      rw [List.mem_zipIdx_iff_getElem?]; simp [hi]
    refine fill_mem _ owned.zipIdx (fun p => p.1) (fun p => vals 0 p.2) (owned[i], i) hmem ?_
    rintro ⟨o, j⟩ hp he
    rw [List.mem_zipIdx_iff_getElem?] at hp
    simp only at he hp
    obtain ⟨hj, hp⟩ := List.getElem?_eq_some_iff.mp hp
    rw [← hp] at he
    have : j = i := (List.Nodup.getElem_inj_iff hnd).mp he
    rw [this]
  · refine fill_other _ _ _ _ _ ?_
    rintro ⟨o', j⟩ hp he
    rw [List.mem_zipIdx_iff_getElem?] at hp
    exact ho (he ▸ List.mem_of_getElem? hp)

/-- C100 (roughness). If owned cells come first in the local numbering, every owned cell that belongs to a region gets the
manufactured roughness at its centroid; other cells keep theirs. Missing: other numberings
(`C100_roughness_violated`). -/
theorem C100_roughness_partial (ndof numOwned : ℕ) (hn : 0 < ndof) (n : ℝ → ℝ → ℝ) (cent : ℕ → ℝ × ℝ)
    (regions : List (List ℕ)) (hnd : ∀ cells ∈ regions, cells.Nodup) (data : ℕ → ℝ) :
    ∃ a, mmsRoughness ndof (ndof * numOwned) n cent
        (regions.map (MatRegion.of (fun c => decide (c < numOwned)) id)) data = .ok a ∧
      ∀ c < numOwned, a c = if ∃ cells ∈ regions, c ∈ cells then n (cent c).1 (cent c).2 else data c := by
  induction regions generalizing data with
  | nil => exact ⟨data, rfl, fun c _ => by simp⟩
  | cons r rs ih =>
    have hfil : (r.filter fun c => decide (ndof * c < ndof * numOwned)) = r.filter fun c => decide (c < numOwned) := by
      refine List.filter_congr fun c _ => ?_
      simp only [decide_eq_decide]
      exact Nat.mul_lt_mul_left hn
    have hnd' : (r.filter fun c => decide (c < numOwned)).Nodup := (hnd r List.mem_cons_self).filter _
    obtain ⟨g1, g2⟩ := restore_one (r.filter fun c => decide (c < numOwned)) hnd' (fun c i =>
      if i < (r.filter fun c => decide (c < numOwned)).length then
        ((r.filter fun c => decide (c < numOwned)).map fun c => n (cent c).1 (cent c).2).getD i 0
      else getRegionData 1 (r.filter fun c => decide (c < numOwned)) data c i) data
    obtain ⟨a, e, f⟩ := ih (fun cells h => hnd cells (List.mem_cons_of_mem _ h))
      (restoreRegionData 1 (r.filter fun c => decide (c < numOwned)) (fun c i =>
        if i < (r.filter fun c => decide (c < numOwned)).length then
          ((r.filter fun c => decide (c < numOwned)).map fun c => n (cent c).1 (cent c).2).getD i 0
        else getRegionData 1 (r.filter fun c => decide (c < numOwned)) data c i) data)
    refine ⟨a, ?_, fun c hc => ?_⟩
    · rw [List.map_cons]
      unfold mmsRoughness mmsRoughnessRegion
      simp only [MatRegion.of, List.map_id, hfil]
      rw [if_pos le_rfl]
      exact e
    · rw [f c hc]
      simp only [List.exists_mem_cons_iff]
      by_cases h1 : ∃ cells ∈ rs, c ∈ cells
      · rw [if_pos h1, if_pos (Or.inr h1)]
      · rw [if_neg h1]
        by_cases h2 : c ∈ r
        · rw [if_pos (Or.inl h2)]
          have hm : c ∈ r.filter fun c => decide (c < numOwned) := List.mem_filter.mpr ⟨h2, decide_eq_true hc⟩
          obtain ⟨i, hi, hci⟩ := List.getElem_of_mem hm
          have := g1 i hi
          rw [hci, if_pos hi, List.getD_eq_getElem _ _ (by simpa using hi)] at this
          rw [this]
          simp only [List.getElem_map, hci]
        · rw [if_neg (by rintro (h | h); exacts [h2 h, h1 h])]
          exact g2 c (fun h => h2 (List.mem_of_mem_filter h))

example (n : ℝ → ℝ → ℝ) := C100_roughness_partial 4 3 (by norm_num) n (fun c => (c, 1)) [[0, 2, 3], [1, 4]] (by decide +kernel)
  fun _ => 0

/-- C100 fails if the owned cells do not come first in the local numbering (the tables of the mesh allow for that): the
cells are chosen by their local number, not by ownership. With a ghost 0 and the owned cells 1 and 2, the first owned
cell gets the roughness of the ghost, the second that of the first. -/
theorem C100_roughness_violated (n : ℝ → ℝ → ℝ) (cent : ℕ → ℝ × ℝ) (data : ℕ → ℝ) :
    ∃ a, mmsRoughness 3 (3 * 2) n cent [MatRegion.of (fun c => decide (1 ≤ c)) (fun c => c - 1) [0, 1, 2]] data = .ok a ∧
      a 0 = n (cent 0).1 (cent 0).2 ∧ a 1 = n (cent 1).1 (cent 1).2 := by
  obtain ⟨g1, -⟩ := restore_one [0, 1] (by decide) (fun c i =>
      if i < [0, 1].length then ([0, 1].map fun c : ℕ => n (cent c).1 (cent c).2).getD i 0
      else getRegionData 1 [0, 1] data c i) data
  refine ⟨_, ?_, g1 0 (by simp), g1 1 (by simp)⟩
  unfold mmsRoughness mmsRoughnessRegion
  rw [show (MatRegion.of (fun c => decide (1 ≤ c)) (fun c => c - 1) [0, 1, 2]).owned = [0, 1] by decide +kernel,
    show ((MatRegion.of (fun c => decide (1 ≤ c)) (fun c => c - 1) [0, 1, 2]).cells.filter
      fun c => decide (3 * c < 3 * 2)) = [0, 1] by decide +kernel, if_pos (by simp)]
  rfl

example : ∃ (n : ℝ → ℝ → ℝ) (cent : ℕ → ℝ × ℝ), n (cent 0).1 (cent 0).2 ≠ n (cent 1).1 (cent 1).2 :=
  ⟨fun x _ => x, fun c => (c, 0), by norm_num⟩

/-! ### Time of the error norms -/

/-- C100 (time of the errors). If times are in seconds, the result of a single run is compared with the manufactured
solution at the time that the solver has reached. -/
theorem C100_error_time_partial (sec : ℝ) : mmsSingleEvalTime .seconds sec = sec := rfl

/-- C100 fails for any other unit of time: the time is converted to the unit of the configuration, but the expressions,
which were used with seconds during the run, are evaluated at this time. -/
theorem C100_error_time_violated (unit : TimeUnit) (h1 : unit ≠ .seconds) (h2 : unit ≠ .unset) (sec : ℝ) (h : 0 < sec) :
    mmsSingleEvalTime unit sec < sec := by
  have key : ∀ k : ℝ, 1 < k → sec / k < sec := fun k hk => div_lt_self h hk
  unfold mmsSingleEvalTime fromSeconds
  cases unit
  · exact absurd rfl h2
  · exact absurd rfl h1
  all_goals
    simp only [div_div, secsInMin, minsInHr, hrsInDay, daysInMon, daysInYr]
    exact key _ (by norm_num)

example : mmsSingleEvalTime .hours 3600 = 1 := by
  unfold mmsSingleEvalTime fromSeconds minsInHr secsInMin
  norm_num

/-! ### Levels -/

/-- C100 (levels). Without the option `-dm_refine`, or with the base refinement as its value, run `r` of a study has the
level that is printed for it: `r` levels finer than the base. -/
theorem C100_levels_partial (opt : Option ℕ) (base : ℕ) (h : opt = none ∨ opt = some 0 ∨ opt = some base) (r : ℕ) :
    mmsLevel opt base r = mmsPrintedLevel base r ∧ mmsLevel opt base r = base + r := by
  unfold mmsLevel mmsPrintedLevel
  by_cases hr : r = 0
  · subst hr
    rw [if_pos rfl]
    rcases h with rfl | rfl | rfl
    · simp
    · simp
    · by_cases hb : base = 0
      · simp [hb]
      · simp
  · rw [if_neg hr]
    omega

example : mmsLevel (some 2) 2 3 = 5 := (C100_levels_partial (some 2) 2 (Or.inr (Or.inr rfl)) 3).2

/-- C100 fails if the option is given with another value: the first run has that level, and the others the levels above
the base. With the option one above the base and one refinement, both runs have the same mesh, and the study fails
whatever the errors: there is no rate. -/
theorem C100_levels_violated (base : ℕ) (dim : ℕ) (cellsAt : ℕ → ℕ) (norms : List ℝ) :
    mmsLevel (some (base + 1)) base 0 ≠ mmsPrintedLevel base 0 ∧
    mmsRate dim ((List.range 2).map fun r => cellsAt (mmsLevel (some (base + 1)) base r)) norms = none := by
  have h0 : mmsLevel (some (base + 1)) base 0 = base + 1 := by simp [mmsLevel]
  have h1 : mmsLevel (some (base + 1)) base 1 = base + 1 := by simp [mmsLevel, Nat.add_comm]
  refine ⟨by rw [h0]; unfold mmsPrintedLevel; omega, ?_⟩
  unfold mmsRate
  cases norms.mapM log10? with
  | none => rfl
  | some ys =>
    dsimp only
    rw [show (List.range 2).map (fun r => cellsAt (mmsLevel (some (base + 1)) base r)) =
      [cellsAt (base + 1), cellsAt (base + 1)] by rw [show List.range 2 = [0, 1] from rfl]; simp [h0, h1]]
    unfold regressionSlope
    rw [if_pos]
    · rfl
    · simp only [List.map_cons, List.map_nil, List.length_cons, List.length_nil, List.sum_cons, List.sum_nil]
      push_cast
      ring

/-! ### Expressions of the boundary conditions -/

theorem MmsPool.run_append (s : MmsPool) (us vs : List MmsUse) :
    s.run (us ++ vs) = (s.run us).andThen fun a => (a.1.run vs).andThen fun b => .ok (b.1, a.2 ++ b.2) := by
  induction us generalizing s with
  | nil =>
    rw [List.nil_append, show s.run [] = .ok (s, []) from rfl]
    unfold Res.andThen
    dsimp only
    cases s.run vs <;> rfl
  | cons u us ih =>
    have hcons : ∀ ws, s.run (u :: ws) =
        (s.use u).andThen fun a => (MmsPool.run a.1 ws).andThen fun b => .ok (b.1, a.2 :: b.2) := fun _ => rfl
    rw [List.cons_append, hcons, hcons]
    cases s.use u with
    | error => rfl
    | ub => rfl
    | ok a =>
      unfold Res.andThen
      dsimp only
      rw [ih]
      unfold Res.andThen
      cases a.1.run us with
      | error => rfl
      | ub => rfl
      | ok b => dsimp only; cases b.1.run vs <;> rfl

theorem pool_setups (k : ℕ) (s : MmsPool) (hs : s.alive 0 = true) (h0 : s.shared = some 0) :
    ∃ s' out, s.run ((List.range k).map fun r => .setup (r + 1)) = .ok (s', out) ∧ (∀ x ∈ out, x = none) ∧
      s'.shared = some k ∧ ∀ r ≤ k, s'.alive r = true := by
  induction k with
  | zero => exact ⟨s, [], rfl, by simp, h0, fun r hr => by rw [Nat.le_zero.mp hr]; exact hs⟩
  | succ k ih =>
    obtain ⟨s', out, e, ho, h1, h2⟩ := ih
    refine ⟨⟨Function.update s'.alive (k + 1) true, some (k + 1)⟩, out ++ [none], ?_, ?_, rfl, ?_⟩
    · rw [List.range_succ, List.map_append, MmsPool.run_append, e]
      rfl
    · intro x hx
      rcases List.mem_append.mp hx with h | h
      · exact ho x h
      · simpa using h
    · intro r hr
      dsimp only
      by_cases hrk : r = k + 1
      · rw [hrk, Function.update_self]
      · rw [Function.update_of_ne hrk]
        exact h2 r (by omega)

theorem pool_enforces (s : MmsPool) (q : ℕ) (hq : s.shared = some q) (ha : s.alive q = true) (us : List MmsUse)
    (hus : ∀ u ∈ us, ∃ r, u = .enforce r) : s.run us = .ok (s, List.replicate us.length (some q)) := by
  induction us with
  | nil => rfl
  | cons u us ih =>
    obtain ⟨r, rfl⟩ := hus u List.mem_cons_self
    unfold MmsPool.run MmsPool.use
    rw [hq]
    dsimp only
    rw [if_pos ha]
    unfold Res.andThen
    dsimp only
    rw [ih fun u hu => hus u (List.mem_cons_of_mem _ hu)]
    rfl

theorem pool_destroys (k : ℕ) (s : MmsPool) :
    ∃ s' out, s.run ((List.range k).map fun r => .destroy (r + 1)) = .ok (s', out) ∧ s'.shared = s.shared ∧
      (∀ r, 1 ≤ r → r ≤ k → s'.alive r = false) ∧ (∀ r, r = 0 ∨ k < r → s'.alive r = s.alive r) ∧ ∀ x ∈ out, x = none := by
  induction k with
  | zero => exact ⟨s, [], rfl, rfl, fun r h1 h2 => absurd h1 (by omega), fun _ _ => rfl, by simp⟩
  | succ k ih =>
    obtain ⟨s', out, e, h1, h2, h3, ho⟩ := ih
    refine ⟨⟨Function.update s'.alive (k + 1) false, s'.shared⟩, out ++ [none], ?_, h1, ?_, ?_, ?_⟩
    · rw [List.range_succ, List.map_append, MmsPool.run_append, e]
      rfl
    · intro r hr hrk
      dsimp only
      by_cases h : r = k + 1
      · rw [h, Function.update_self]
      · rw [Function.update_of_ne h]
        exact h2 r hr (by omega)
    · intro r hr
      dsimp only
      rw [Function.update_of_ne (by omega)]
      exact h3 r (by omega)
    · intro x hx
      rcases List.mem_append.mp hx with h | h
      · exact ho x h
      · simpa using h

/-- C100 (study). A convergence study with `k` refinements evaluates no released expression: before every step of every
run, the boundary values come from living expressions, those of the run set up last (which have the same text, since
all runs read the same file). -/
theorem C100_study (k : ℕ) (steps : ℕ → ℕ) (s : MmsPool) (hs : s.alive 0 = true) (h0 : s.shared = some 0) :
    ∃ s' out, s.run (mmsStudyUses k steps) = .ok (s', out) ∧ (∀ x ∈ out, x = none ∨ x = some k) ∧
      s'.shared = some k ∧ s'.alive 0 = true ∧ ∀ r, 1 ≤ r → r ≤ k → s'.alive r = false := by
  obtain ⟨s1, o1, e1, ho1, h1, h2⟩ := pool_setups k s hs h0
  have e2 := pool_enforces s1 k h1 (h2 k le_rfl)
    ((List.range (k + 1)).flatMap fun r => List.replicate (steps r) (.enforce r)) (by
      intro u hu
      obtain ⟨r, -, hr⟩ := List.mem_flatMap.mp hu
      exact ⟨r, (List.mem_replicate.mp hr).2⟩)
  obtain ⟨s3, o3, e3, h3, h4, h5, ho3⟩ := pool_destroys k s1
  refine ⟨s3, o1 ++ List.replicate ((List.range (k + 1)).flatMap fun r =>
    List.replicate (steps r) (MmsUse.enforce r)).length (some k) ++ o3, ?_, ?_, by rw [h3, h1], by rw [h5 0 (Or.inl rfl)]; exact h2 0 (Nat.zero_le _), h4⟩
  · unfold mmsStudyUses
    rw [MmsPool.run_append, MmsPool.run_append, e1]
    unfold Res.andThen
    dsimp only
    rw [e2]
    dsimp only
    rw [e3]
  · intro x hx
    rcases List.mem_append.mp hx with h | h
    · rcases List.mem_append.mp h with h | h
      · exact Or.inl (ho1 x h)
      · exact Or.inr (List.mem_replicate.mp h).2
    · exact Or.inl (ho3 x h)

example := C100_study 3 (fun r => 10 * 2 ^ r) ⟨fun r => decide (r = 0), some 0⟩ rfl rfl

/-- C100 fails after a study: the conditions of the remaining run refer to the expressions of the run set up last, which
have been released, so that a further step of the remaining run evaluates released expressions. -/
theorem C100_after_study_violated (k : ℕ) (hk : 0 < k) (steps : ℕ → ℕ) (s : MmsPool) (hs : s.alive 0 = true)
    (h0 : s.shared = some 0) : s.run (mmsStudyUses k steps ++ [.enforce 0]) = .ub := by
  obtain ⟨s', out, e, -, h1, -, h2⟩ := C100_study k steps s hs h0
  rw [MmsPool.run_append, e]
  unfold Res.andThen
  dsimp only
  unfold MmsPool.run MmsPool.use
  rw [h1]
  dsimp only
  rw [if_neg (by rw [h2 k hk le_rfl]; simp)]
  rfl

example := C100_after_study_violated 1 one_pos (fun _ => 5) ⟨fun r => decide (r = 0), some 0⟩ rfl rfl

/-- C100 fails for two runs set up side by side, with different files: the boundary values of both come from the
expressions of the second. -/
theorem C100_two_runs_violated :
    ∃ s', MmsPool.start.run [.setup 0, .setup 1, .enforce 0, .enforce 1] = .ok (s', [none, none, some 1, some 1]) :=
  ⟨_, rfl⟩

end RDy
