import Verif.Model.Data
import Verif.Lemmas.Fields
import Mathlib.Data.List.GetD

/-!
Properties of data accessors (C26, C27, C28).
-/

namespace RDy

/-! ### C26: sources -/

/-- Write-back of a region: entry `(c, i)` of the table goes to component `c` of the `i`-th cell, all
other positions keep their value. -/
private theorem restore_spec (n : ℕ) (owned : List ℕ) (hnd : owned.Nodup) (vals : ℕ → ℕ → ℝ)
    (data : ℕ → ℝ) :
    (∀ c < n, ∀ i (hi : i < owned.length),
      restoreRegionData n owned vals data (n * owned[i] + c) = vals c i) ∧
    (∀ o c, c < n → o ∉ owned → restoreRegionData n owned vals data (n * o + c) = data (n * o + c)) := by
  unfold restoreRegionData
  have key : ∀ m ≤ n,
      (∀ c < m, ∀ i (hi : i < owned.length),
        (List.range m).foldl (fun data c => fill data owned.zipIdx (fun p => n * p.1 + c)
          fun p => vals c p.2) data (n * owned[i] + c) = vals c i) ∧
      (∀ o c, c < n → (m ≤ c ∨ o ∉ owned) →
        (List.range m).foldl (fun data c => fill data owned.zipIdx (fun p => n * p.1 + c)
          fun p => vals c p.2) data (n * o + c) = data (n * o + c)) := by
    intro m
    induction m with
    | zero => intro _; simp
    | succ m ih =>
      intro hm
      obtain ⟨i1, i2⟩ := ih (by omega)
      simp only [List.range_succ, List.foldl_append, List.foldl_cons, List.foldl_nil]
      refine ⟨?_, ?_⟩
      · intro c hc i hi
        by_cases hcm : c = m
        · subst hcm
          have hmem : (owned[i], i) ∈ owned.zipIdx := by
            rw [List.mem_zipIdx_iff_getElem?]; simp [hi]
          refine fill_mem _ owned.zipIdx (fun p => n * p.1 + c) (fun p => vals c p.2) (owned[i], i)
            hmem ?_
          rintro ⟨o, j⟩ hp he
          obtain ⟨he, _⟩ := block_inj (n := n) (by omega) (by omega) he
          rw [List.mem_zipIdx_iff_getElem?] at hp
          simp only at he hp
          obtain ⟨hj, hp⟩ := List.getElem?_eq_some_iff.mp hp
          rw [← hp] at he
          have : j = i := (List.Nodup.getElem_inj_iff hnd).mp he
          rw [this]
        · rw [fill_other]
          · exact i1 c (by omega) i hi
          · rintro p _ he
            have := (block_inj (n := n) (by omega) (by omega) he).2
            omega
      · intro o c hc hco
        rw [fill_other]
        · refine i2 o c hc ?_
          rcases hco with h | h
          · left; omega
          · right; exact h
        · rintro ⟨o', j⟩ hp he
          obtain ⟨h1, h2⟩ := block_inj (n := n) (by omega) hc he
          rcases hco with h | h
          · omega
          · simp only at h1
            rw [List.mem_zipIdx_iff_getElem?] at hp
            exact h (h1 ▸ List.mem_of_getElem? hp)
  obtain ⟨k1, k2⟩ := key n le_rfl
  exact ⟨k1, fun o c hc ho => k2 o c hc (Or.inr ho)⟩

/-- Replacement of one component. -/
theorem restore_comp (n : ℕ) (owned : List ℕ) (hnd : owned.Nodup) (comp : ℕ) (v : ℕ → ℝ)
    (data : ℕ → ℝ) :
    (∀ i (hi : i < owned.length), comp < n →
      restoreRegionData n owned (fun c i => if c = comp then v i else getRegionData n owned data c i)
        data (n * owned[i] + comp) = v i) ∧
    (∀ o c, c < n → (c ≠ comp ∨ o ∉ owned) →
      restoreRegionData n owned (fun c i => if c = comp then v i else getRegionData n owned data c i)
        data (n * o + c) = data (n * o + c)) := by
  obtain ⟨h1, h2⟩ := restore_spec n owned hnd
    (fun c i => if c = comp then v i else getRegionData n owned data c i) data
  refine ⟨fun i hi hc => by rw [h1 comp hc i hi, if_pos rfl], ?_⟩
  intro o c hc hco
  by_cases ho : o ∈ owned
  · obtain ⟨i, hi, rfl⟩ := List.getElem_of_mem ho
    have hne : c ≠ comp := by rcases hco with h | h; exacts [h, absurd ho h]
    rw [h1 c hc i hi, if_neg hne]
    unfold getRegionData
    rw [List.getD_eq_getElem _ _ hi]
  · exact h2 o c hc ho

/-- C26 (region): with region IDs all different, setting a component of the region with ID `r.id`
puts `values[i]` into that component of the region's `i`-th owned cell and changes nothing else;
a wrong number of values is an error. -/
theorem C26_regional (n : ℕ) (regions : List SrcRegion) (r : SrcRegion) (hr : r ∈ regions)
    (hid : ∀ s ∈ regions, s.id = r.id → s = r) (hnd : r.owned.Nodup) (comp : ℕ) (hc : comp < n)
    (values : List ℝ) (data : ℕ → ℝ) :
    if values.length = r.owned.length then
      ∃ d, setRegional n regions r.id comp values data = .ok d ∧
        (∀ i (hi : i < r.owned.length) (hv : i < values.length), d (n * r.owned[i] + comp) = values[i]) ∧
        (∀ o c, c < n → (c ≠ comp ∨ o ∉ r.owned) → d (n * o + c) = data (n * o + c))
    else setRegional n regions r.id comp values data = .error := by
  have hf : regionOfId regions r.id = some r := by
    unfold regionOfId
    cases h : regions.find? fun s => decide (s.id = r.id) with
    | none =>
      have := List.find?_eq_none.mp h r hr
      simp at this
    | some s =>
      rw [hid s (List.mem_of_find?_eq_some h) (by simpa using List.find?_some h)]
  unfold setRegional
  rw [hf]
  simp only
  split
  · next hl =>
    rw [if_neg (not_not.mpr hl)]
    by_cases he : r.owned = []
    · rw [if_pos he]
      refine ⟨data, rfl, ?_, fun _ _ _ _ => rfl⟩
      intro i hi; rw [he] at hi; simp at hi
    · rw [if_neg he, if_neg (by omega)]
      obtain ⟨h1, h2⟩ := restore_comp n r.owned hnd comp (fun i => values.getD i 0) data
      refine ⟨_, rfl, ?_, h2⟩
      intro i hi hv
      rw [h1 i hi hc, List.getD_eq_getElem _ _ hv]
  · next hl => simp [hl]

example : ∃ d, setRegional 4 [⟨7, [2, 0]⟩, ⟨3, [1]⟩] 7 1 [10, 20] (fun _ => 0) = .ok d ∧
    d (4 * 0 + 1) = 20 := by
  have h := C26_regional 4 [⟨7, [2, 0]⟩, ⟨3, [1]⟩] ⟨7, [2, 0]⟩ (by simp) (by simp) (by simp) 1
    (by omega) [10, 20] fun _ => 0
  rw [if_pos (by simp)] at h
  obtain ⟨d, h1, h2, _⟩ := h
  exact ⟨d, h1, by simpa using h2 1 (by simp) (by simp)⟩

/-- C26 (homogeneous): likewise with one value for all cells of the region. -/
theorem C26_homogeneous (n : ℕ) (regions : List SrcRegion) (r : SrcRegion) (hr : r ∈ regions)
    (hid : ∀ s ∈ regions, s.id = r.id → s = r) (hnd : r.owned.Nodup) (comp : ℕ) (hc : comp < n)
    (v : ℝ) (data : ℕ → ℝ) :
    ∃ d, setHomogeneous n regions r.id comp v data = .ok d ∧
      (∀ o ∈ r.owned, d (n * o + comp) = v) ∧
      (∀ o c, c < n → (c ≠ comp ∨ o ∉ r.owned) → d (n * o + c) = data (n * o + c)) := by
  have hf : regionOfId regions r.id = some r := by
    unfold regionOfId
    cases h : regions.find? fun s => decide (s.id = r.id) with
    | none =>
      have := List.find?_eq_none.mp h r hr
      simp at this
    | some s =>
      rw [hid s (List.mem_of_find?_eq_some h) (by simpa using List.find?_some h)]
  unfold setHomogeneous
  rw [hf]
  simp only
  by_cases he : r.owned = []
  · rw [if_pos he]
    exact ⟨data, rfl, by rw [he]; simp, fun _ _ _ _ => rfl⟩
  · rw [if_neg he, if_neg (by omega)]
    obtain ⟨h1, h2⟩ := restore_comp n r.owned hnd comp (fun _ => v) data
    refine ⟨_, rfl, ?_, h2⟩
    intro o ho
    obtain ⟨i, hi, rfl⟩ := List.getElem_of_mem ho
    exact h1 i hi hc

example : ∃ d, setHomogeneous 3 [⟨7, [2, 0]⟩, ⟨3, [1]⟩] 7 2 5 (fun _ => 1) = .ok d ∧
    d (3 * 2 + 2) = 5 ∧ d (3 * 1 + 2) = 1 := by
  obtain ⟨d, h1, h2, h3⟩ := C26_homogeneous 3 [⟨7, [2, 0]⟩, ⟨3, [1]⟩] ⟨7, [2, 0]⟩ (by simp) (by simp)
    (by simp) 2 (by omega) 5 fun _ => 1
  exact ⟨d, h1, h2 2 (by simp), h3 1 2 (by omega) (Or.inr (by simp))⟩

/-- C26 (domain): a component of all owned cells is set, the others are kept; a wrong number of
values is an error. -/
theorem C26_domain (n numOwned comp : ℕ) (hc : comp < n) (values : List ℝ) (data : ℕ → ℝ) :
    if values.length = numOwned then
      ∃ d, setDomain n numOwned comp values data = .ok d ∧
        (∀ o (hv : o < values.length), d (n * o + comp) = values[o]) ∧
        (∀ o c, c < n → (c ≠ comp ∨ numOwned ≤ o) → d (n * o + c) = data (n * o + c))
    else setDomain n numOwned comp values data = .error := by
  unfold setDomain
  split
  · next hl =>
    rw [if_neg (not_not.mpr hl), if_neg (by omega)]
    obtain ⟨h1, h2⟩ := restore_comp n (List.range numOwned) List.nodup_range comp
      (fun i => values.getD i 0) data
    refine ⟨_, rfl, ?_, ?_⟩
    · intro o ho
      have := h1 o (by simpa using hl ▸ ho) hc
      rw [List.getElem_range] at this
      rw [this, List.getD_eq_getElem _ _ ho]
    · intro o c hcn hco
      refine h2 o c hcn ?_
      rcases hco with h | h
      · exact Or.inl h
      · right; simpa using h
  · next hl => simp [hl]

example : ∃ d, setDomain 3 2 1 [8, 9] (fun _ => 0) = .ok d ∧ d (3 * 1 + 1) = 9 := by
  have h := C26_domain 3 2 1 (by omega) [8, 9] fun _ => 0
  rw [if_pos (by simp)] at h
  obtain ⟨d, h1, h2, _⟩ := h
  exact ⟨d, h1, by simpa using h2 1 (by simp)⟩

/-- C26 (read back): the copied-out table of a region has the values just set. -/
theorem C26_read_back (n : ℕ) (regions : List SrcRegion) (r : SrcRegion) (hr : r ∈ regions)
    (hid : ∀ s ∈ regions, s.id = r.id → s = r) (hnd : r.owned.Nodup) (comp : ℕ) (hc : comp < n)
    (values : List ℝ) (hl : values.length = r.owned.length) (data d : ℕ → ℝ)
    (h : setRegional n regions r.id comp values data = .ok d) :
    ∀ i (hv : i < values.length), getRegionData n r.owned d comp i = values[i] := by
  have h0 := C26_regional n regions r hr hid hnd comp hc values data
  rw [if_pos hl] at h0
  obtain ⟨d', e1, e2, _⟩ := h0
  rw [h] at e1
  cases e1
  intro i hv
  have hi : i < r.owned.length := hl ▸ hv
  unfold getRegionData
  rw [List.getD_eq_getElem _ _ hi]
  exact e2 i hi hv

example (d : ℕ → ℝ) (h : setRegional 3 [⟨1, [4, 2]⟩] 1 0 [6, 7] (fun _ => 0) = .ok d) :
    getRegionData 3 [4, 2] d 0 1 = 7 :=
  C26_read_back 3 [⟨1, [4, 2]⟩] ⟨1, [4, 2]⟩ (by simp) (by simp) (by simp) 0 (by omega) [6, 7] (by simp)
    _ d h 1 (by simp)

/-- C26 (unknown region): a call for an ID that no region has changes nothing (and is not an
error). -/
theorem C26_unknown_id (n : ℕ) (regions : List SrcRegion) (rid : ℤ)
    (h : ∀ r ∈ regions, r.id ≠ rid) (comp : ℕ) (values : List ℝ) (data : ℕ → ℝ) :
    setRegional n regions rid comp values data = .ok data := by
  unfold setRegional
  have : regionOfId regions rid = none := by
    unfold regionOfId; rw [List.find?_eq_none]; intro r hr; simpa using h r hr
  rw [this]

example : setRegional 3 [⟨1, [0]⟩] 5 0 [1] (fun _ => 2) = .ok fun _ => 2 :=
  C26_unknown_id 3 [⟨1, [0]⟩] 5 (by simp) 0 [1] _

/-- C26 fails for components outside the range: the sediment class is not checked
(`RDySetRegionalSedimentSource` passes component `3 + class`), so class `numClasses` (one too many,
with no other tracers) writes out of bounds. -/
theorem C26_class_unchecked_violated (numClasses : ℕ) (r : SrcRegion) (o : ℕ) (os : List ℕ)
    (ho : r.owned = o :: os) (values : List ℝ) (hv : values.length = r.owned.length) (data : ℕ → ℝ) :
    setRegional (3 + numClasses) [r] r.id (3 + numClasses) values data = .ub := by
  unfold setRegional regionOfId
  simp [hv, ho]

example : setRegional (3 + 2) [⟨1, [0, 1]⟩] 1 (3 + 2) [7, 8] (fun _ => 0) = .ub :=
  C26_class_unchecked_violated 2 ⟨1, [0, 1]⟩ 0 [1] rfl [7, 8] rfl _

/-- One call of a source setter. -/
structure SrcCall where
  rid : ℤ
  comp : ℕ
  values : List ℝ

/-- A history of calls. -/
def runCalls (n : ℕ) (regions : List SrcRegion) : List SrcCall → (ℕ → ℝ) → Res (ℕ → ℝ)
  | [], data => .ok data
  | c :: cs, data =>
    match setRegional n regions c.rid c.comp c.values data with
    | .ok d => runCalls n regions cs d
    | .error => .error
    | .ub => .ub

/-- Specification: the value a call gives to component `c` of owned cell `o`, if it addresses it. -/
def SrcCall.gives (regions : List SrcRegion) (call : SrcCall) (o c : ℕ) (v : ℝ) : Prop :=
  call.comp = c ∧ ∃ r ∈ regions, r.id = call.rid ∧ ∃ i : ℕ, r.owned[i]? = some o ∧ call.values[i]? = some v

/-- C26 (histories): after any history of successful calls, each entry holds the value given by the
last call that addresses it, or its initial value if no call does. -/
theorem C26_history (n : ℕ) (regions : List SrcRegion)
    (hid : ∀ r ∈ regions, ∀ s ∈ regions, s.id = r.id → s = r)
    (hnd : ∀ r ∈ regions, r.owned.Nodup)
    (calls : List SrcCall) (hcomp : ∀ c ∈ calls, c.comp < n) (data d : ℕ → ℝ)
    (h : runCalls n regions calls data = .ok d) (o c : ℕ) (hc : c < n) :
    (∃ pre call post, calls = pre ++ call :: post ∧ call.gives regions o c (d (n * o + c)) ∧
      ∀ k ∈ post, ∀ v, ¬ k.gives regions o c v) ∨
    ((∀ k ∈ calls, ∀ v, ¬ k.gives regions o c v) ∧ d (n * o + c) = data (n * o + c)) := by
  induction calls generalizing data with
  | nil =>
    unfold runCalls at h
    cases h
    exact Or.inr ⟨by simp, rfl⟩
  | cons k ks ih =>
    unfold runCalls at h
    cases hs : setRegional n regions k.rid k.comp k.values data with
    | error => rw [hs] at h; cases h
    | ub => rw [hs] at h; cases h
    | ok d1 =>
      rw [hs] at h
      rcases ih (fun c hc => hcomp c (List.mem_cons_of_mem _ hc)) d1 h with
        ⟨pre, call, post, e1, e2, e3⟩ | ⟨e1, e2⟩
      · exact Or.inl ⟨k :: pre, call, post, by rw [e1]; rfl, e2, e3⟩
      · -- what this call does
        by_cases hreg : ∃ r ∈ regions, r.id = k.rid
        · obtain ⟨r, hr, hrid⟩ := hreg
          have h0 := C26_regional n regions r hr (hid r hr) (hnd r hr) k.comp
            (hcomp k List.mem_cons_self) k.values data
          rw [hrid] at h0
          split at h0
          · next hl =>
            obtain ⟨d', f1, f2, f3⟩ := h0
            rw [hs] at f1
            cases f1
            by_cases hadd : k.comp = c ∧ o ∈ r.owned
            · obtain ⟨hk, ho⟩ := hadd
              obtain ⟨i, hi, rfl⟩ := List.getElem_of_mem ho
              have hv : i < k.values.length := by omega
              refine Or.inl ⟨[], k, ks, rfl, ⟨hk, r, hr, hrid, i, by simp [hi], ?_⟩, e1⟩
              rw [e2, ← hk, f2 i hi hv]
              simp [hv]
            · refine Or.inr ⟨?_, ?_⟩
              · intro k' hk' v hg
                rcases List.mem_cons.mp hk' with rfl | hk'
                · obtain ⟨g1, s, hs', g2, i, g3, _⟩ := hg
                  have : s = r := hid r hr s hs' (by rw [g2, hrid])
                  subst this
                  exact hadd ⟨g1, List.mem_of_getElem? g3⟩
                · exact e1 k' hk' v hg
              · rw [e2]
                refine f3 o c hc ?_
                by_cases hkc : k.comp = c
                · right; exact fun ho => hadd ⟨hkc, ho⟩
                · left; exact fun h => hkc h.symm
          · rw [hs] at h0; cases h0
        · have h0 := C26_unknown_id n regions k.rid (fun r hr he => hreg ⟨r, hr, he⟩) k.comp
            k.values data
          rw [hs] at h0
          cases h0
          refine Or.inr ⟨?_, e2⟩
          intro k' hk' v hg
          rcases List.mem_cons.mp hk' with rfl | hk'
          · obtain ⟨_, s, hs', g2, _⟩ := hg
            exact hreg ⟨s, hs', g2⟩
          · exact e1 k' hk' v hg

example : ∃ d, runCalls 3 [⟨1, [0]⟩, ⟨2, [1]⟩] [⟨1, 0, [5]⟩, ⟨2, 0, [6]⟩, ⟨1, 0, [7]⟩] (fun _ => 0)
    = .ok d := ⟨_, rfl⟩

/-- C26 (configured sources), the part that holds: if the ID of each region equals its index, each
region gets the water source configured for it. Missing: any other numbering
(`C26_init_violated`). -/
theorem C26_init_partial (n : ℕ) (hn : 0 < n) (regions : List SrcRegion)
    (hidx : ∀ k (hk : k < regions.length), (regions[k]).id = k)
    (hnd : ∀ r ∈ regions, r.owned.Nodup)
    (hdis : regions.Pairwise fun r s => ∀ o ∈ r.owned, o ∉ s.owned)
    (srcs : List (Option ℝ)) (hl : srcs.length = regions.length) (data : ℕ → ℝ) :
    ∃ d, initSources n regions srcs data = .ok d ∧
      ∀ k (hk : k < regions.length), ∀ o ∈ (regions[k]).owned,
        d (n * o) = (srcs.getD k none).getD (data (n * o)) := by
  have hid : ∀ r ∈ regions, ∀ s ∈ regions, s.id = r.id → s = r := by
    intro r hr s hs he
    obtain ⟨i, hi, rfl⟩ := List.getElem_of_mem hr
    obtain ⟨j, hj, rfl⟩ := List.getElem_of_mem hs
    rw [hidx i hi, hidx j hj] at he
    have : j = i := by exact_mod_cast he
    subst this
    rfl
  have hdj : ∀ i (hi : i < regions.length) j (hj : j < regions.length), i ≠ j →
      ∀ o ∈ (regions[i]).owned, o ∉ (regions[j]).owned := by
    intro i hi j hj hne o ho ho'
    rcases Nat.lt_or_gt_of_ne hne with h | h
    · exact List.pairwise_iff_getElem.mp hdis i j hi hj h o ho ho'
    · exact List.pairwise_iff_getElem.mp hdis j i hj hi h o ho' ho
  unfold initSources
  have key : ∀ (ss : List (Option ℝ)) (k : ℕ) (data : ℕ → ℝ), k + ss.length = regions.length →
      ∃ d, initSourcesFrom n regions k ss data = .ok d ∧
        ∀ j (hj : j < regions.length), ∀ o ∈ (regions[j]).owned,
          d (n * o) = (if k ≤ j then ss.getD (j - k) none else none).getD (data (n * o)) := by
    intro ss
    induction ss with
    | nil =>
      intro k data hk
      refine ⟨data, rfl, ?_⟩
      intro j hj o _
      simp
    | cons s ss ih =>
      intro k data hk
      simp only [List.length_cons] at hk
      have shift : ∀ j, k + 1 ≤ j → (s :: ss).getD (j - k) none = ss.getD (j - (k + 1)) none := by
        intro j hj
        obtain ⟨m, rfl⟩ : ∃ m, j = k + 1 + m := ⟨j - (k + 1), by omega⟩
        rw [show k + 1 + m - k = m + 1 by omega, show k + 1 + m - (k + 1) = m by omega]
        rfl
      cases s with
      | none =>
        obtain ⟨d, h1, h2⟩ := ih (k + 1) data (by omega)
        refine ⟨d, h1, ?_⟩
        intro j hj o ho
        rw [h2 j hj o ho]
        by_cases hkj : k + 1 ≤ j
        · rw [if_pos hkj, if_pos (by omega), shift j hkj]
        · rw [if_neg hkj]
          by_cases hkj' : k ≤ j
          · have : j = k := by omega
            subst this
            simp
          · rw [if_neg hkj']
      | some v =>
        have hk' : k < regions.length := by omega
        obtain ⟨d1, f1, f2, f3⟩ := C26_homogeneous n regions regions[k] (List.getElem_mem hk')
          (hid _ (List.getElem_mem hk')) (hnd _ (List.getElem_mem hk')) 0 hn v data
        rw [hidx k hk'] at f1
        obtain ⟨d, h1, h2⟩ := ih (k + 1) d1 (by omega)
        refine ⟨d, by unfold initSourcesFrom; rw [f1]; exact h1, ?_⟩
        intro j hj o ho
        rw [h2 j hj o ho]
        simp only [Nat.add_zero] at f2 f3
        by_cases hkj : j = k
        · subst hkj
          rw [if_neg (by omega), if_pos le_rfl, f2 o ho]
          simp
        · have hd1 : d1 (n * o) = data (n * o) := by
            simpa using f3 o 0 hn (Or.inr (hdj j hj k hk' hkj o ho))
          rw [hd1]
          by_cases hkj' : k + 1 ≤ j
          · rw [if_pos hkj', if_pos (by omega), shift j hkj']
          · rw [if_neg hkj', if_neg (by omega)]
  obtain ⟨d, h1, h2⟩ := key srcs 0 data (by omega)
  exact ⟨d, h1, fun k hk o ho => by simpa using h2 k hk o ho⟩

example : ∃ d, initSources 3 [⟨0, [1]⟩, ⟨1, [0]⟩] [none, some 4] (fun _ => 9) = .ok d ∧
    d (3 * 0) = 4 ∧ d (3 * 1) = 9 := by
  obtain ⟨d, h1, h2⟩ := C26_init_partial 3 (by omega) [⟨0, [1]⟩, ⟨1, [0]⟩]
    (by intro k hk
        have : k = 0 ∨ k = 1 := by simp at hk; omega
        rcases this with rfl | rfl <;> simp)
    (by simp) (by simp) [none, some 4] rfl fun _ => 9
  exact ⟨d, h1, by simpa using h2 1 (by simp) 0 (by simp), by simpa using h2 0 (by simp) 1 (by simp)⟩

/-- C26 fails for configured sources when region IDs are not the indices: with IDs 1 and 2 (the usual
numbering), the source of the first region is lost, and the first region gets the source of the
second one, which gets none. -/
theorem C26_init_violated (v w : ℝ) :
    ∃ d, initSources 3 [⟨1, [0]⟩, ⟨2, [1]⟩] [some v, some w] (fun _ => 0) = .ok d ∧
      d (3 * 0) = w ∧ d (3 * 1) = 0 := by
  have hne : (regionOfId [⟨1, [0]⟩, ⟨2, [1]⟩] 0) = none := by decide
  refine ⟨_, rfl, ?_⟩
  simp [restoreRegionData, fill, getRegionData, List.range_succ]

/-- C26 (Manning coefficients): here regions are addressed by index; the call sets the property of
exactly that region's cells, and an index out of range or a wrong size is an error. -/
theorem C26_manning (regions : List SrcRegion) (k : ℕ) (hk : k < regions.length)
    (hnd : (regions[k]).owned.Nodup) (values : List ℝ)
    (hl : values.length = (regions[k]).owned.length) (data : ℕ → ℝ) :
    ∃ d, setRegionalManning regions k values data = .ok d ∧
      (∀ i (hi : i < (regions[k]).owned.length), d ((regions[k]).owned[i]) = values[i]) ∧
      (∀ o ∉ (regions[k]).owned, d o = data o) := by
  unfold setRegionalManning
  rw [if_neg (by omega), if_neg (by omega)]
  have : regions[(k : ℤ).toNat]? = some regions[k] := by simp [hk]
  rw [this]
  simp only
  rw [if_neg (not_not.mpr hl)]
  obtain ⟨h1, h2⟩ := restore_comp 1 (regions[k]).owned hnd 0 (fun i => values.getD i 0) data
  refine ⟨_, rfl, ?_, ?_⟩
  · intro i hi
    have := h1 i hi (by omega)
    simp only [Nat.one_mul, Nat.add_zero] at this
    rw [this, List.getD_eq_getElem]
  · intro o ho
    simpa using h2 o 0 (by omega) (Or.inr ho)

theorem C26_manning_errors (regions : List SrcRegion) (k : ℤ) (values : List ℝ) (data : ℕ → ℝ)
    (h : k < 0 ∨ (regions.length : ℤ) ≤ k ∨
      ∃ r, regions[k.toNat]? = some r ∧ values.length ≠ r.owned.length) :
    setRegionalManning regions k values data = .error := by
  unfold setRegionalManning
  by_cases h1 : (regions.length : ℤ) ≤ k
  · rw [if_pos h1]
  · rw [if_neg h1]
    by_cases h2 : k < 0
    · rw [if_pos h2]
    · rw [if_neg h2]
      obtain ⟨r, h3, h4⟩ : ∃ r, regions[k.toNat]? = some r ∧ values.length ≠ r.owned.length := by
        rcases h with h | h | h
        exacts [absurd h h2, absurd h h1, h]
      rw [h3]
      simp only
      rw [if_pos h4]

example : ∃ d, setRegionalManning [⟨5, [1]⟩, ⟨9, [2, 0]⟩] (1 : ℕ) [3, 4] (fun _ => 0) = .ok d ∧
    d 0 = 4 := by
  obtain ⟨d, h1, h2, _⟩ := C26_manning [⟨5, [1]⟩, ⟨9, [2, 0]⟩] 1 (by simp) (by simp) [3, 4] (by simp)
    fun _ => 0
  exact ⟨d, h1, h2 1 (by simp)⟩

example : setRegionalManning [⟨5, [1]⟩] (-1) [3] (fun _ => 0) = .error :=
  C26_manning_errors _ _ _ _ (Or.inl (by omega))

/-! ### C27: Dirichlet boundary values -/

/-- The kinds of boundary data. -/
inductive BKind
  | flow | sediment | salinity | temperature

/-- Specification: components of each kind, in the vector of boundary values: 3 flow components,
sediment classes, salinity, temperature. -/
def BKind.comps (p : Phys) : BKind → ℕ × ℕ
  | .flow => (0, 3)
  | .sediment => (3, p.numClasses)
  | .salinity => (3 + p.numClasses, if p.salinityOn then 1 else 0)
  | .temperature => (3 + p.numClasses + (if p.salinityOn then 1 else 0), if p.heatOn then 1 else 0)

/-- The condition of a boundary of each kind. -/
def BKind.cond (b : BndInfo) : BKind → Option CondType
  | .flow => some b.flow
  | .sediment => b.sediment
  | .salinity => b.salinity
  | .temperature => b.temperature

/-- The four setters. -/
def setKind (p : Phys) (bnds : List BndInfo) (kind : BKind) (b : ℤ) (numEdges : ℕ) (values : List ℝ)
    (data : ℕ → ℕ → ℝ) : Res (ℕ → ℕ → ℝ) :=
  match kind with
  | .flow => setFlowDirichlet p bnds b numEdges 3 values data
  | .sediment => setSedimentDirichlet p bnds b numEdges p.numClasses values data
  | .salinity => setSalinityDirichlet p bnds b numEdges values data
  | .temperature => setTemperatureDirichlet p bnds b numEdges values data

/-- C27 (layout): the components of different kinds are disjoint and fill the vector. -/
theorem C27_layout (p : Phys) :
    (∀ k l : BKind, k ≠ l → ∀ i, (k.comps p).1 ≤ i → i < (k.comps p).1 + (k.comps p).2 →
      ¬ ((l.comps p).1 ≤ i ∧ i < (l.comps p).1 + (l.comps p).2)) ∧
    (∀ i, i < p.total ↔ ∃ k : BKind, (k.comps p).1 ≤ i ∧ i < (k.comps p).1 + (k.comps p).2) := by
  obtain ⟨nc, s, h⟩ := p
  refine ⟨?_, ?_⟩
  · rintro (_ | _ | _ | _) (_ | _ | _ | _) hkl i <;>
      first
        | exact absurd rfl hkl
        | (simp only [BKind.comps]; cases s <;> cases h <;> simp <;> omega)
  · intro i
    constructor
    · intro hi
      simp only [Phys.total] at hi
      by_cases h1 : i < 3
      · exact ⟨.flow, by simp [BKind.comps]; omega⟩
      · by_cases h2 : i < 3 + nc
        · exact ⟨.sediment, by simp [BKind.comps]; omega⟩
        · cases s
          · refine ⟨.temperature, ?_⟩
            cases h <;> simp [BKind.comps] at hi ⊢ <;> omega
          · by_cases h3 : i = 3 + nc
            · exact ⟨.salinity, by simp [BKind.comps]; omega⟩
            · refine ⟨.temperature, ?_⟩
              cases h <;> simp [BKind.comps] at hi ⊢ <;> omega
    · rintro ⟨_ | _ | _ | _, h1, h2⟩ <;> simp only [BKind.comps] at h1 h2 <;>
        simp only [Phys.total] <;> cases s <;> cases h <;> simp at * <;> omega

private theorem setBoundaryData_spec (total off m numEdges : ℕ) (hoff : off + m ≤ total)
    (values : List ℝ) (data : ℕ → ℝ) :
    (∀ e < numEdges, ∀ c < m,
      setBoundaryData total off m numEdges values data (total * e + (off + c))
        = values.getD (m * e + c) 0) ∧
    (∀ e, ∀ j < total, (numEdges ≤ e ∨ j < off ∨ off + m ≤ j) →
      setBoundaryData total off m numEdges values data (total * e + j) = data (total * e + j)) := by
  unfold setBoundaryData
  have key : ∀ k ≤ m,
      (∀ e < numEdges, ∀ c < k,
        (List.range k).foldl (fun data c => fill data (List.range numEdges)
          (fun e => total * e + off + c) fun e => values.getD (m * e + c) 0) data
          (total * e + (off + c)) = values.getD (m * e + c) 0) ∧
      (∀ e, ∀ j < total, (numEdges ≤ e ∨ j < off ∨ off + k ≤ j) →
        (List.range k).foldl (fun data c => fill data (List.range numEdges)
          (fun e => total * e + off + c) fun e => values.getD (m * e + c) 0) data (total * e + j)
          = data (total * e + j)) := by
    intro k
    induction k with
    | zero => intro _; simp
    | succ k ih =>
      intro hk
      obtain ⟨i1, i2⟩ := ih (by omega)
      simp only [List.range_succ, List.foldl_append, List.foldl_cons, List.foldl_nil]
      refine ⟨?_, ?_⟩
      · intro e he c hc
        by_cases hck : c = k
        · subst hck
          rw [← Nat.add_assoc]
          exact fill_mem _ (List.range numEdges) (fun e => total * e + off + c)
            (fun e => values.getD (m * e + c) 0) e (List.mem_range.mpr he) (by
              intro d _ hd
              rw [Nat.add_assoc, Nat.add_assoc] at hd
              rw [(block_inj (n := total) (by omega) (by omega) hd).1])
        · rw [fill_other]
          · exact i1 e he c (by omega)
          · intro d _ hd
            rw [Nat.add_assoc] at hd
            have := (block_inj (n := total) (by omega) (by omega) hd).2
            omega
      · intro e j hj hjo
        rw [fill_other]
        · exact i2 e j hj (by omega)
        · intro d hd0 hd
          rw [Nat.add_assoc] at hd
          obtain ⟨h1, h2⟩ := block_inj (n := total) (by omega) hj hd
          rw [List.mem_range] at hd0
          omega
  exact key m le_rfl

/-- C27: setting values of one kind on a Dirichlet boundary with the right number of edges succeeds;
afterwards value `m*e + c` is component `c` of that kind at edge `e`, and every other component of
that boundary and all of every other boundary are as before. (That the boundary has a condition of
the kind at all is a hypothesis: see `C27_temperature_violated`.) -/
theorem C27_set_partial (p : Phys) (bnds : List BndInfo) (kind : BKind) (b : ℕ) (bnd : BndInfo)
    (hb : bnds[b]? = some bnd) (hd : kind.cond bnd = some .dirichlet)
    (hon : match kind with
      | .salinity => p.salinityOn = true
      | .temperature => p.heatOn = true
      | _ => True)
    (values : List ℝ) (data : ℕ → ℕ → ℝ) :
    ∃ d, setKind p bnds kind b bnd.numEdges values data = .ok d ∧
      (∀ e < bnd.numEdges, ∀ c < (kind.comps p).2,
        d b (p.total * e + ((kind.comps p).1 + c)) = values.getD ((kind.comps p).2 * e + c) 0) ∧
      (∀ e, ∀ j < p.total, (j < (kind.comps p).1 ∨ (kind.comps p).1 + (kind.comps p).2 ≤ j) →
        d b (p.total * e + j) = data b (p.total * e + j)) ∧
      (∀ b' ≠ b, d b' = data b') := by
  have hlt : b < bnds.length := (List.getElem?_eq_some_iff.mp hb).1
  have core : ∀ (sel : BndInfo → Option CondType) (off m : ℕ), off + m ≤ p.total →
      sel bnd = some .dirichlet →
      ∃ d, setDirichlet p bnds sel off m b bnd.numEdges values data = .ok d ∧
        (∀ e < bnd.numEdges, ∀ c < m, d b (p.total * e + (off + c)) = values.getD (m * e + c) 0) ∧
        (∀ e, ∀ j < p.total, (j < off ∨ off + m ≤ j) →
          d b (p.total * e + j) = data b (p.total * e + j)) ∧
        (∀ b' ≠ b, d b' = data b') := by
    intro sel off m hoff hsel
    unfold setDirichlet
    rw [if_neg (by omega), if_neg (by omega)]
    have : bnds[(b : ℤ).toNat]? = some bnd := by simpa using hb
    rw [this]
    simp only [ne_eq, not_true_eq_false, if_false, hsel]
    obtain ⟨h1, h2⟩ := setBoundaryData_spec p.total off m bnd.numEdges hoff values (data b)
    refine ⟨_, rfl, ?_, ?_, ?_⟩
    · intro e he c hc
      simpa using h1 e he c hc
    · intro e j hj hjo
      simpa using h2 e j hj (Or.inr hjo)
    · intro b' hb'
      simp [hb']
  cases kind with
  | flow =>
    simp only [setKind, setFlowDirichlet]
    rw [if_neg (by simp)]
    exact core _ 0 3 (by unfold Phys.total; omega) hd
  | sediment =>
    simp only [setKind, setSedimentDirichlet]
    rw [if_neg (by simp)]
    exact core _ 3 p.numClasses (by unfold Phys.total; omega) hd
  | salinity =>
    simp only at hon
    simp only [setKind, setSalinityDirichlet, BKind.comps, hon, if_true]
    rw [if_neg (by simp)]
    exact core _ (3 + p.numClasses) 1 (by unfold Phys.total; rw [hon]; simp) hd
  | temperature =>
    simp only at hon
    simp only [setKind, setTemperatureDirichlet, BKind.comps, hon, if_true]
    rw [if_neg (by simp)]
    exact core _ _ 1 (by unfold Phys.total; rw [hon]; simp) hd

example : ∃ d, setKind ⟨2, false, false⟩ [⟨1, .reflecting, none, none, none⟩,
      ⟨3, .dirichlet, some .dirichlet, none, none⟩] .sediment (1 : ℕ) 3 [1, 2, 3, 4, 5, 6]
      (fun _ _ => 0) = .ok d ∧ d 1 (5 * 2 + (3 + 1)) = 6 := by
  obtain ⟨d, h1, h2, _⟩ := C27_set_partial ⟨2, false, false⟩ [⟨1, .reflecting, none, none, none⟩,
      ⟨3, .dirichlet, some .dirichlet, none, none⟩] .sediment 1
      ⟨3, .dirichlet, some .dirichlet, none, none⟩ rfl rfl trivial [1, 2, 3, 4, 5, 6] fun _ _ => 0
  exact ⟨d, h1, by simpa [BKind.comps, Phys.total] using h2 2 (by simp) 1 (by simp [BKind.comps])⟩

/-- C27 (errors): a call for a boundary that does not exist, with the wrong number of edges, or on a
boundary whose condition is not Dirichlet, is an error and sets nothing. -/
theorem C27_errors (p : Phys) (bnds : List BndInfo) (b : ℤ) (numEdges : ℕ)
    (values : List ℝ) (data : ℕ → ℕ → ℝ)
    (h : b < 0 ∨ (bnds.length : ℤ) ≤ b ∨ ∃ bnd, bnds[b.toNat]? = some bnd ∧
      (bnd.numEdges ≠ numEdges ∨ bnd.flow ≠ .dirichlet)) :
    setKind p bnds .flow b numEdges values data = .error := by
  simp only [setKind, setFlowDirichlet]
  rw [if_neg (by simp)]
  unfold setDirichlet
  by_cases h1 : (bnds.length : ℤ) ≤ b
  · rw [if_pos h1]
  · rw [if_neg h1]
    by_cases h2 : b < 0
    · rw [if_pos h2]
    · rw [if_neg h2]
      obtain ⟨r, h3, h4⟩ : ∃ bnd, bnds[b.toNat]? = some bnd ∧
          (bnd.numEdges ≠ numEdges ∨ bnd.flow ≠ .dirichlet) := by
        rcases h with h | h | h
        exacts [absurd h h2, absurd h h1, h]
      rw [h3]
      simp only
      by_cases h5 : r.numEdges ≠ numEdges
      · rw [if_pos h5]
      · rw [if_neg h5]
        rcases h4 with h4 | h4
        · exact absurd h4 h5
        · rw [if_pos h4]

example : setKind ⟨0, false, false⟩ [⟨2, .reflecting, none, none, none⟩] .flow 0 2 [] (fun _ _ => 0)
    = .error :=
  C27_errors _ _ _ _ _ _ (Or.inr (Or.inr ⟨⟨2, .reflecting, none, none, none⟩, rfl, Or.inr (by simp)⟩))

/-- C27 fails for temperature: setup never assigns a temperature condition to a boundary, so with
heat transfer on the setter follows a null pointer on every existing boundary. -/
theorem C27_temperature_violated (p : Phys) (hh : p.heatOn = true) (conds : List BndCond)
    (edges : List ℕ) (b : ℕ) (hb : b < (List.zipWith BndInfo.ofCond edges conds).length)
    (values : List ℝ) (data : ℕ → ℕ → ℝ) :
    setKind p (List.zipWith BndInfo.ofCond edges conds) .temperature b
      ((List.zipWith BndInfo.ofCond edges conds)[b]).numEdges values data = .ub := by
  simp only [setKind, setTemperatureDirichlet]
  rw [if_neg (by simp [hh])]
  unfold setDirichlet
  rw [if_neg (by omega), if_neg (by omega)]
  have : (List.zipWith BndInfo.ofCond edges conds)[(b : ℤ).toNat]?
      = some (List.zipWith BndInfo.ofCond edges conds)[b] := by
    rw [Int.toNat_natCast, List.getElem?_eq_getElem hb]
  rw [this]
  simp [BndInfo.ofCond]

/-- C27 fails on boundaries with automatically generated conditions: the sediment setter follows a
null pointer instead of reporting an error. -/
theorem C27_auto_violated (env : CondEnv) (nm : Str) (c : BndCond)
    (h : bcOf env [] nm = .ok c) (numEdges : ℕ) (p : Phys) (values : List ℝ) (data : ℕ → ℕ → ℝ) :
    setKind p [BndInfo.ofCond numEdges c] .sediment 0 numEdges values data = .ub := by
  unfold bcOf at h
  simp [bcIndex] at h
  subst h
  simp [setKind, setSedimentDirichlet, setDirichlet, BndInfo.ofCond]

example (env : CondEnv) : ∃ c, bcOf env [] ['b'] = .ok c := ⟨_, rfl⟩

/-- C27 (setup): the initial Dirichlet values of flow are those of the boundary's condition at every
edge, on every Dirichlet boundary. -/
theorem C27_init_flow (p : Phys) (bs : List (BndInfo × (ℝ × ℝ × ℝ)))
    (hty : ∀ x ∈ bs, x.1.flow = .dirichlet ∨ x.1.flow = .reflecting ∨ x.1.flow = .criticalOutflow)
    (data : ℕ → ℕ → ℝ) :
    ∃ d, initDirichletFrom p (bs.map Prod.fst) 0 bs data = .ok d ∧
      ∀ b x, bs[b]? = some x → x.1.flow = .dirichlet → ∀ e < x.1.numEdges,
        d b (p.total * e) = x.2.1 ∧ d b (p.total * e + 1) = x.2.2.1 ∧
        d b (p.total * e + 2) = x.2.2.2 := by
  have hgetD : ∀ (n : ℕ) (a b c : ℝ) (e : ℕ), e < n →
      ((List.replicate n [a, b, c]).flatten).getD (3 * e + 0) 0 = a ∧
      ((List.replicate n [a, b, c]).flatten).getD (3 * e + 1) 0 = b ∧
      ((List.replicate n [a, b, c]).flatten).getD (3 * e + 2) 0 = c := by
    intro n a b c
    induction n with
    | zero => intro e he; omega
    | succ n ih =>
      intro e he
      rw [List.replicate_succ, List.flatten_cons]
      cases e with
      | zero => simp
      | succ e =>
        obtain ⟨h1, h2, h3⟩ := ih e (by omega)
        rw [show 3 * (e + 1) + 0 = (3 * e + 0) + 3 by omega,
          show 3 * (e + 1) + 1 = (3 * e + 1) + 3 by omega,
          show 3 * (e + 1) + 2 = (3 * e + 2) + 3 by omega]
        exact ⟨by simpa using h1, by simpa using h2, by simpa using h3⟩
  have key : ∀ (rest pre : List (BndInfo × (ℝ × ℝ × ℝ))) (data : ℕ → ℕ → ℝ), bs = pre ++ rest →
      ∃ d, initDirichletFrom p (bs.map Prod.fst) pre.length rest data = .ok d ∧
        (∀ b, b < pre.length → d b = data b) ∧
        ∀ b x, pre.length ≤ b → bs[b]? = some x → x.1.flow = .dirichlet → ∀ e < x.1.numEdges,
          d b (p.total * e) = x.2.1 ∧ d b (p.total * e + 1) = x.2.2.1 ∧
          d b (p.total * e + 2) = x.2.2.2 := by
    intro rest
    induction rest with
    | nil =>
      intro pre data hbs
      refine ⟨data, rfl, fun _ _ => rfl, ?_⟩
      intro b x hb hx
      rw [hbs, List.append_nil, List.getElem?_eq_none hb] at hx
      cases hx
    | cons y rest ih =>
      intro pre data hbs
      have hbs' : bs = (pre ++ [y]) ++ rest := by simp [hbs]
      have hy : bs[pre.length]? = some y := by rw [hbs]; simp
      have next : ∀ data' : ℕ → ℕ → ℝ, (∀ b < pre.length, data' b = data b) →
          (y.1.flow = .dirichlet → ∀ e < y.1.numEdges,
            data' pre.length (p.total * e) = y.2.1 ∧ data' pre.length (p.total * e + 1) = y.2.2.1 ∧
            data' pre.length (p.total * e + 2) = y.2.2.2) →
          ∃ d, initDirichletFrom p (bs.map Prod.fst) (pre.length + 1) rest data' = .ok d ∧
            (∀ b, b < pre.length → d b = data b) ∧
            ∀ b x, pre.length ≤ b → bs[b]? = some x → x.1.flow = .dirichlet → ∀ e < x.1.numEdges,
              d b (p.total * e) = x.2.1 ∧ d b (p.total * e + 1) = x.2.2.1 ∧
              d b (p.total * e + 2) = x.2.2.2 := by
        intro data' h1 h2
        obtain ⟨d, g1, g2, g3⟩ := ih (pre ++ [y]) data' hbs'
        rw [List.length_append, List.length_singleton] at g1 g2 g3
        refine ⟨d, g1, fun b hb => by rw [g2 b (by omega), h1 b hb], ?_⟩
        intro b x hb hx hf e he
        by_cases hb' : b = pre.length
        · subst hb'
          rw [hy] at hx
          cases hx
          rw [g2 _ (by omega)]
          exact h2 hf e he
        · exact g3 b x (by omega) hx hf e he
      obtain ⟨yb, yv⟩ := y
      have hmem : (yb, yv) ∈ bs := by rw [hbs]; simp
      unfold initDirichletFrom
      rcases hty _ hmem with hf | hf | hf
      · simp only at hf
        rw [hf]
        simp only
        have hb0 : (bs.map Prod.fst)[pre.length]? = some yb := by
          rw [List.getElem?_map, hy]; rfl
        obtain ⟨d1, f1, f2, f3, f4⟩ := C27_set_partial p (bs.map Prod.fst) .flow pre.length yb hb0
          (by simp [BKind.cond, hf]) trivial
          ((List.replicate yb.numEdges [yv.1, yv.2.1, yv.2.2]).flatten) data
        simp only [setKind] at f1
        rw [f1]
        simp only
        refine next d1 (fun b hb => f4 b (by omega)) ?_
        intro _ e he
        simp only at he ⊢
        obtain ⟨q1, q2, q3⟩ := hgetD yb.numEdges yv.1 yv.2.1 yv.2.2 e he
        refine ⟨?_, ?_, ?_⟩
        · rw [← q1]; exact f2 e he 0 (by simp [BKind.comps])
        · rw [← q2]; exact f2 e he 1 (by simp [BKind.comps])
        · rw [← q3]; exact f2 e he 2 (by simp [BKind.comps])
      · simp only at hf
        rw [hf]
        exact next data (fun _ _ => rfl) (fun h => by simp only [hf] at h; cases h)
      · simp only at hf
        rw [hf]
        exact next data (fun _ _ => rfl) (fun h => by simp only [hf] at h; cases h)
  obtain ⟨d, h1, _, h3⟩ := key bs [] data rfl
  exact ⟨d, h1, fun b x hx => h3 b x (Nat.zero_le _) hx⟩

example : ∃ d, initDirichletFrom ⟨1, false, false⟩
    [⟨1, .reflecting, none, none, none⟩, ⟨2, .dirichlet, some .dirichlet, none, none⟩] 0
    [(⟨1, .reflecting, none, none, none⟩, 0, 0, 0),
      (⟨2, .dirichlet, some .dirichlet, none, none⟩, 5, 6, 7)] (fun _ _ => 0) = .ok d ∧
    d 1 (4 * 1 + 2) = 7 := by
  obtain ⟨d, h1, h2⟩ := C27_init_flow ⟨1, false, false⟩
    [(⟨1, .reflecting, none, none, none⟩, 0, 0, 0),
      (⟨2, .dirichlet, some .dirichlet, none, none⟩, 5, 6, 7)] (by simp) fun _ _ => 0
  exact ⟨d, h1, (h2 1 _ rfl rfl 1 (by simp)).2.2⟩

/-- C27 fails for tracers at setup: a boundary with a Dirichlet condition for sediment, salinity or
temperature keeps, in all tracer components of all edges, the zeros the vector is created with; the
concentrations of the configuration are not consulted. -/
theorem C27_init_tracers_violated (p : Phys) (bnds : List BndInfo) (k : ℕ)
    (bs : List (BndInfo × (ℝ × ℝ × ℝ))) (data d : ℕ → ℕ → ℝ)
    (h : initDirichletFrom p bnds k bs data = .ok d) :
    ∀ b e j, 3 ≤ j → j < p.total → d b (p.total * e + j) = data b (p.total * e + j) := by
  induction bs generalizing k data with
  | nil => unfold initDirichletFrom at h; cases h; intros; rfl
  | cons y rest ih =>
    obtain ⟨yb, yv⟩ := y
    unfold initDirichletFrom at h
    intro b e j hj hj'
    cases hf : yb.flow with
    | neumann => rw [hf] at h; cases h
    | runoff => rw [hf] at h; cases h
    | reflecting => rw [hf] at h; exact ih _ _ h b e j hj hj'
    | criticalOutflow => rw [hf] at h; exact ih _ _ h b e j hj hj'
    | dirichlet =>
      rw [hf] at h
      simp only at h
      split at h
      · next d1 hd1 =>
        rw [ih _ _ h b e j hj hj']
        -- the setter only touches the flow components
        unfold setFlowDirichlet setDirichlet at hd1
        rw [if_neg (by simp)] at hd1
        split at hd1
        · cases hd1
        split at hd1
        · cases hd1
        split at hd1
        · cases hd1
        split at hd1
        · cases hd1
        simp only at hd1
        split at hd1
        · cases hd1
        cases hd1
        by_cases hb : b = k
        · subst hb
          simp only [Int.toNat_natCast, Function.update_self]
          exact (setBoundaryData_spec p.total 0 3 yb.numEdges (by unfold Phys.total; omega) _ _).2 e j
            hj' (Or.inr (Or.inr (by omega)))
        · rw [Int.toNat_natCast, Function.update_of_ne hb]
      · cases h
      · cases h

example : ∃ d, initDirichletFrom ⟨1, false, false⟩ [⟨2, .dirichlet, some .dirichlet, none, none⟩] 0
    [(⟨2, .dirichlet, some .dirichlet, none, none⟩, 5, 6, 7)] (fun _ _ => 0) = .ok d ∧
    d 0 (4 * 1 + 3) = 0 := by
  refine ⟨_, rfl, ?_⟩
  simp [setBoundaryData, fill, Phys.total, List.range_succ]

/-! ### C28: prognostic variables -/

/-- C28, the part that holds: with three components per cell (no tracers), position `i` of the result
is component `idof` of cell `i`. Missing: solution vectors with tracers (`C28_tracers_violated`). -/
theorem C28_getters_partial (numOwned idof ndof : ℕ) (hn : ndof = 3) (u : ℕ → ℝ) (debug : Bool) :
    ∃ v, getOwnedCells debug numOwned numOwned idof u = .ok v ∧ v.length = numOwned ∧
      ∀ i (hi : i < v.length), v[i] = u (ndof * i + idof) := by
  refine ⟨getPrognostic numOwned idof u, ?_, by simp [getPrognostic], ?_⟩
  · unfold getOwnedCells
    simp
  · intro i hi
    simp [getPrognostic, hn]

example : ∃ v, getOwnedCells true 4 4 1 (fun k => k) = .ok v ∧ v.length = 4 ∧
    ∀ i (hi : i < v.length), v[i] = ((3 * i + 1 : ℕ) : ℝ) :=
  C28_getters_partial 4 1 3 rfl (fun k => k) true

/-- C28 fails with tracers: for every number of components other than 3, and any two owned cells or
more, there is a solution for which the second entry is not the second cell's value. -/
theorem C28_tracers_violated (ndof numOwned : ℕ) (hn : ndof ≠ 3) (h2 : 2 ≤ numOwned) (debug : Bool) :
    ∃ (u : ℕ → ℝ) (v : List ℝ), getOwnedCells debug numOwned numOwned 0 u = .ok v ∧
      v.getD 1 0 ≠ u (ndof * 1 + 0) := by
  refine ⟨fun k => k, getPrognostic numOwned 0 fun k => k, ?_, ?_⟩
  · unfold getOwnedCells; simp
  · rw [List.getD_eq_getElem _ _ (by simp [getPrognostic]; omega)]
    simp only [getPrognostic, List.getElem_map, List.getElem_range]
    intro h
    have : (3 * 1 + 0 : ℕ) = ndof * 1 + 0 := by exact_mod_cast h
    omega

example : ∃ (u : ℕ → ℝ) (v : List ℝ), getOwnedCells true 2 2 0 u = .ok v ∧ v.getD 1 0 ≠ u (5 * 1 + 0) :=
  C28_tracers_violated 5 2 (by omega) (by omega) true

/-- C28 fails in optimised builds: a size that is too small is not noticed, and the array is
overrun. -/
theorem C28_unchecked_size_violated (numOwned size idof : ℕ) (h : size < numOwned) (u : ℕ → ℝ) :
    getOwnedCells true numOwned size idof u = .error ∧
    getOwnedCells false numOwned size idof u = .ub := by
  unfold getOwnedCells
  have : size ≠ numOwned := by omega
  simp [this, h]

example : getOwnedCells true 5 3 0 (fun _ => 1) = .error :=
  (C28_unchecked_size_violated 5 3 0 (by omega) _).1

/-- C28 (natural IDs): the IDs of the owned cells, in local order, none left out. -/
theorem C28_natural_ids (cells : List (Bool × ℤ)) :
    ownedNaturalIds cells = (cells.filterMap fun c => if c.1 then some c.2 else none) := by
  unfold ownedNaturalIds
  induction cells with
  | nil => rfl
  | cons c cs ih =>
    obtain ⟨b, i⟩ := c
    cases b <;> simp [ih]

example : ownedNaturalIds [(true, 4), (false, 7), (true, 2)] = [4, 2] := by decide

end RDy
