import Verif.Model.Observations
import Verif.Lemmas.Batched
import Mathlib.Tactic

/-! Lemmas about the file of observations. -/

namespace RDy

/-- The owned cells in the order of PETSc's global numbering: process after process, each in its local order. -/
def globalCells (procs : List (List ObsCell)) : List ObsCell := procs.flatMap fun cells => cells.filter fun c => c.owned

/-- The states of the owned cells in the same order; `nc` values for each cell. -/
noncomputable def globalStates (nc : ℕ) (u : List (Arr ℝ)) : List (ℕ → ℝ) :=
  u.flatMap fun a => (List.range (a.len / nc)).map fun i c => if c < nc then a.val (nc * i + c) else 0

/-- A solution belongs to a mesh: `nc` values for each owned cell of each process. -/
def ObsFits (nc : ℕ) (procs : List (List ObsCell)) (u : List (Arr ℝ)) : Prop :=
  u.map Arr.len = procs.map fun cells => nc * cells.countP fun c => c.owned

theorem vecEntry_states {nc : ℕ} (hnc : 0 < nc) (u : List (Arr ℝ)) (hu : ∀ a ∈ u, nc ∣ a.len) (s c : ℕ) (hc : c < nc) :
    vecEntry u (s * nc + c) = ((globalStates nc u)[s]?).map fun q => q c := by
  induction u generalizing s with
  | nil => simp [vecEntry, globalStates]
  | cons a u ih =>
    obtain ⟨m, hm⟩ := hu a (by simp)
    have hdiv : a.len / nc = m := by rw [hm, Nat.mul_div_cancel_left _ hnc]
    unfold vecEntry globalStates
    rw [List.flatMap_cons, hdiv]
    by_cases h : s < m
    · have h1 : s * nc + c < a.len := by rw [hm]; nlinarith
      rw [if_pos h1, List.getElem?_append_left (by simpa using h), List.getElem?_map, List.getElem?_range h]
      simp [Nat.mul_comm, hc]
    · have h1 : ¬ s * nc + c < a.len := by rw [hm]; nlinarith
      rw [if_neg h1, List.getElem?_append_right (by simpa using h)]
      have h2 : s * nc + c - a.len = (s - m) * nc + c := by
        obtain ⟨t, rfl⟩ := Nat.exists_eq_add_of_le (Nat.le_of_not_lt h)
        rw [hm, Nat.add_sub_cancel_left, Nat.add_mul, Nat.mul_comm nc m]; omega
      rw [h2, ih fun a h => hu a (by simp [h])]
      simp [globalStates]

theorem globalStates_length {nc : ℕ} (hnc : 0 < nc) {procs : List (List ObsCell)} {u : List (Arr ℝ)} (h : ObsFits nc procs u) :
    (globalStates nc u).length = (globalCells procs).length := by
  induction procs generalizing u with
  | nil =>
    unfold ObsFits at h
    have : u = [] := by simpa using h
    subst this; rfl
  | cons p procs ih =>
    cases u with
    | nil => simp [ObsFits] at h
    | cons a u =>
      unfold ObsFits at h
      rw [List.map_cons, List.map_cons, List.cons.injEq] at h
      have h2 := ih (u := u) h.2
      unfold globalStates globalCells at *
      rw [List.flatMap_cons, List.flatMap_cons, List.length_append, List.length_append, h2, h.1, Nat.mul_div_cancel_left _ hnc,
        List.countP_eq_length_filter]
      simp

theorem obsFits_dvd {nc : ℕ} {procs : List (List ObsCell)} {u : List (Arr ℝ)} (h : ObsFits nc procs u) : ∀ a ∈ u, nc ∣ a.len := by
  intro a ha
  have : a.len ∈ u.map Arr.len := List.mem_map_of_mem ha
  rw [h] at this
  obtain ⟨p, -, hp⟩ := List.mem_map.mp this
  exact ⟨_, hp.symm⟩

theorem vecEntry_list {α : Type} (l : List (Arr α)) (i : ℕ) :
    vecEntry l i = (l.flatMap fun a => (List.range a.len).map a.val)[i]? := by
  induction l generalizing i with
  | nil => simp [vecEntry]
  | cons a l ih =>
    unfold vecEntry
    rw [List.flatMap_cons]
    by_cases h : i < a.len
    · rw [if_pos h, List.getElem?_append_left (by simpa using h), List.getElem?_map, List.getElem?_range h]; rfl
    · rw [if_neg h, List.getElem?_append_right (by simpa using h), ih]; simp

theorem blockIndices_get {bs : ℕ} (idx : List ℕ) (i c : ℕ) (hc : c < bs) :
    (blockIndices bs idx)[i * bs + c]? = (idx[i]?).map fun s => s * bs + c := by
  induction idx generalizing i with
  | nil => simp [blockIndices]
  | cons s idx ih =>
    unfold blockIndices
    rw [List.flatMap_cons]
    cases i with
    | zero =>
      rw [Nat.zero_mul, Nat.zero_add, List.getElem?_append_left (by simpa using hc), List.getElem?_map, List.getElem?_range hc]; rfl
    | succ i =>
      have h1 : (i + 1) * bs + c = bs + (i * bs + c) := by ring
      rw [h1, List.getElem?_append_right (by simp)]
      have h2 : bs + (i * bs + c) - ((List.range bs).map fun c => s * bs + c).length = i * bs + c := by simp
      rw [h2]
      exact ih i

theorem blockIndices_range (bs n : ℕ) : blockIndices bs (List.range n) = List.range (n * bs) := by
  induction n with
  | zero => simp [blockIndices]
  | succ n ih =>
    have h : blockIndices bs (List.range (n + 1)) = blockIndices bs (List.range n) ++ (List.range bs).map fun c => n * bs + c := by
      unfold blockIndices; rw [List.range_succ, List.flatMap_append]; simp
    rw [h, ih, Nat.add_mul, Nat.one_mul, List.range_add]

theorem blockIndices_length (bs : ℕ) (idx : List ℕ) : (blockIndices bs idx).length = idx.length * bs := by
  induction idx with
  | nil => simp [blockIndices]
  | cons s idx ih =>
    unfold blockIndices at *
    rw [List.flatMap_cons, List.length_append, ih, List.length_map, List.length_range, List.length_cons]; ring

theorem scatterV_pairs (g : List (Arr ℝ)) (l : List (ℕ × ℕ)) (v : Arr ℝ) (h1 : ∀ p ∈ l, (vecEntry g p.1).isSome) (h2 : ∀ p ∈ l, p.2 < v.len)
    (h3 : (l.map Prod.snd).Nodup) :
    ∃ w, scatterV g l v = some w ∧ w.len = v.len ∧ (∀ p ∈ l, vecEntry g p.1 = some (w.val p.2)) ∧
      ∀ j, j ∉ l.map Prod.snd → w.val j = v.val j := by
  induction l generalizing v with
  | nil => exact ⟨v, rfl, rfl, fun p hp => absurd hp (by simp), fun _ _ => rfl⟩
  | cons p l ih =>
    obtain ⟨x, hx⟩ := Option.isSome_iff_exists.mp (h1 p (by simp))
    rw [List.map_cons, List.nodup_cons] at h3
    obtain ⟨w, e1, e2, e3, e4⟩ := ih ⟨v.len, Function.update v.val p.2 x⟩ (fun q hq => h1 q (by simp [hq])) (fun q hq => h2 q (by simp [hq])) h3.2
    refine ⟨w, ?_, e2, ?_, ?_⟩
    · unfold scatterV at *
      rw [List.foldlM_cons, hx]
      show (v.put p.2 x).bind _ = _
      unfold Arr.put
      rw [if_pos (h2 p (by simp))]
      exact e1
    · intro q hq
      rcases List.mem_cons.mp hq with rfl | hq
      · rw [hx, e4 _ h3.1]; simp
      · exact e3 q hq
    · intro j hj
      rw [List.map_cons, List.mem_cons, not_or] at hj
      rw [e4 j hj.2]
      exact Function.update_of_ne hj.1 _ _

theorem scatterV_undefined (g : List (Arr ℝ)) (l : List (ℕ × ℕ)) (v : Arr ℝ) {p : ℕ × ℕ} (hp : p ∈ l) (h : vecEntry g p.1 = none) :
    scatterV g l v = none := by
  induction l generalizing v with
  | nil => exact absurd hp (by simp)
  | cons q l ih =>
    unfold scatterV at *
    rw [List.foldlM_cons]
    rcases List.mem_cons.mp hp with rfl | hp
    · rw [h]; rfl
    · cases hq : (vecEntry g q.1).bind fun x => v.put q.2 x with
      | none => rfl
      | some w => exact ih w hp

theorem createScatter_pairs (nc : ℕ) (sites : List ℕ) :
    (createScatter nc sites).2 = (blockIndices nc sites).zip (List.range (blockIndices nc sites).length) := by
  unfold createScatter
  dsimp only
  rw [blockIndices_range, blockIndices_length]

theorem scatter_sites {nc : ℕ} (g : List (Arr ℝ)) (sites : List ℕ) (v : Arr ℝ) (hv : v.len = nc * sites.length)
    (h : ∀ s ∈ sites, ∀ c < nc, (vecEntry g (s * nc + c)).isSome) :
    ∃ w, scatterV g (createScatter nc sites).2 v = some w ∧ w.len = nc * sites.length ∧
      ∀ i s, sites[i]? = some s → ∀ c < nc, vecEntry g (s * nc + c) = some (w.val (nc * i + c)) := by
  obtain ⟨w, e1, e2, e3, -⟩ := scatterV_pairs g (createScatter nc sites).2 v (by
      intro p hp
      rw [createScatter_pairs] at hp
      have hp1 := (List.of_mem_zip hp).1
      unfold blockIndices at hp1
      obtain ⟨s, hs, hp2⟩ := List.mem_flatMap.mp hp1
      obtain ⟨c, hc, hp3⟩ := List.mem_map.mp hp2
      rw [← hp3]
      exact h s hs c (List.mem_range.mp hc)) (by
      intro p hp
      rw [createScatter_pairs] at hp
      have := List.mem_range.mp (List.of_mem_zip hp).2
      rw [blockIndices_length] at this
      rw [hv, Nat.mul_comm]; exact this) (by
      rw [createScatter_pairs, List.map_snd_zip (by simp)]
      exact List.nodup_range)
  refine ⟨w, e1, e2.trans hv, ?_⟩
  intro i s hs c hc
  have hget := blockIndices_get sites i c hc
  rw [hs] at hget
  have hlt : i * nc + c < (blockIndices nc sites).length := (List.getElem?_eq_some_iff.mp hget).1
  have hmem : (s * nc + c, i * nc + c) ∈ (createScatter nc sites).2 := by
    rw [createScatter_pairs, List.mem_iff_getElem?]
    refine ⟨i * nc + c, ?_⟩
    rw [List.getElem?_zip_eq_some]
    exact ⟨hget, List.getElem?_range hlt⟩
  have := e3 _ hmem
  rw [Nat.mul_comm nc i]
  exact this

/-! ### Coordinates -/

theorem take_succ_filter (cells : List ObsCell) {i : ℕ} (hi : i < cells.length) :
    (cells.take (i + 1)).filter (fun c => c.owned) = (cells.take i).filter (fun c => c.owned) ++ if cells[i].owned then [cells[i]] else [] := by
  rw [List.take_succ_eq_append_getElem hi, List.filter_append]
  by_cases h : cells[i].owned
  · rw [if_pos h]; simp [h]
  · rw [if_neg h]; simp [h]

theorem coordPart_spec (k : ℕ) (cells : List ObsCell) (a : Arr ℝ) (ha : a.len = cells.countP fun c => c.owned) :
    ∃ b, coordPart k cells a = some b ∧ (List.range b.len).map b.val = (cells.filter fun c => c.owned).map fun c => c.centroid k := by
  have hcount : cells.countP (fun c => c.owned) = (cells.filter fun c => c.owned).length := List.countP_eq_length_filter
  obtain ⟨s, e, i1, i2, i3⟩ := loopM_inv (step := coordStep k cells) (n := cells.length) (s := (a, 0))
    (fun i (s : Arr ℝ × ℕ) => s.1.len = a.len ∧ s.2 = ((cells.take i).filter fun c => c.owned).length ∧
      ∀ j, ∀ c, ((cells.take i).filter fun c => c.owned)[j]? = some c → s.1.val j = c.centroid k)
    ⟨rfl, by simp, by simp⟩ (by
      intro i hi s hs
      obtain ⟨h1, h2, h3⟩ := hs
      unfold coordStep
      rw [List.getElem?_eq_getElem hi]
      show ∃ s', (if cells[i].owned then _ else _) = some s' ∧ _
      have hf := take_succ_filter cells hi
      by_cases h : cells[i].owned
      · rw [if_pos h] at hf ⊢
        have hlt : s.2 < s.1.len := by
          rw [h1, ha, hcount, h2]
          have h4 : ((cells.take (i + 1)).filter fun c => c.owned).length ≤ (cells.filter fun c => c.owned).length :=
            ((List.take_sublist _ _).filter _).length_le
          rw [hf, List.length_append] at h4
          simpa using h4
        unfold Arr.put
        rw [if_pos hlt]
        refine ⟨_, rfl, h1, ?_, ?_⟩
        · show s.2 + 1 = _
          rw [hf, h2]; simp
        · intro j c hj
          show Function.update s.1.val s.2 _ j = _
          rw [hf] at hj
          by_cases hjs : j = s.2
          · subst hjs
            rw [h2, List.getElem?_append_right (le_refl _)] at hj
            simp only [Nat.sub_self, List.getElem?_cons_zero, Option.some.injEq] at hj
            rw [Function.update_self, hj]
          · rw [Function.update_of_ne hjs]
            apply h3
            rcases Nat.lt_or_ge j s.2 with hl | hl
            · rwa [List.getElem?_append_left (by rw [← h2]; exact hl)] at hj
            · rw [List.getElem?_append_right (by rw [← h2]; exact hl)] at hj
              have : j - ((cells.take i).filter fun c => c.owned).length ≠ 0 := by rw [← h2]; omega
              rw [List.getElem?_eq_none (by simp; omega)] at hj
              exact absurd hj (by simp)
      · rw [if_neg h] at hf ⊢
        rw [List.append_nil] at hf
        exact ⟨s, rfl, h1, by rw [hf]; exact h2, by rw [hf]; exact h3⟩)
  refine ⟨s.1, by unfold coordPart; rw [e]; rfl, ?_⟩
  rw [List.take_length] at i2 i3
  apply List.ext_getElem?
  intro j
  rw [i1, ha, hcount]
  rcases Nat.lt_or_ge j (cells.filter fun c => c.owned).length with hj | hj
  · rw [List.getElem?_map, List.getElem?_map, List.getElem?_range hj, List.getElem?_eq_getElem hj]
    show some _ = some _
    rw [i3 j _ (List.getElem?_eq_getElem hj)]
  · rw [List.getElem?_eq_none (by simpa using hj), List.getElem?_eq_none (by simpa using hj)]

theorem coordParts_spec (k : ℕ) (procs : List (List ObsCell)) :
    ∃ g, (procs.mapM fun cells => coordPart k cells (Arr.calloc (cells.countP fun c => c.owned) 0)) = some g ∧
      ∀ s, vecEntry g s = ((globalCells procs)[s]?).map fun c => c.centroid k := by
  have key : ∃ g, (procs.mapM fun cells => coordPart k cells (Arr.calloc (cells.countP fun c => c.owned) 0)) = some g ∧
      (g.flatMap fun a => (List.range a.len).map a.val) = (globalCells procs).map fun c => c.centroid k := by
    induction procs with
    | nil => exact ⟨[], rfl, rfl⟩
    | cons p procs ih =>
      obtain ⟨g, e1, e2⟩ := ih
      obtain ⟨b, b1, b2⟩ := coordPart_spec k p (Arr.calloc (p.countP fun c => c.owned) 0) rfl
      refine ⟨b :: g, ?_, ?_⟩
      · rw [List.mapM_cons, b1, e1]; rfl
      · unfold globalCells at *
        rw [List.flatMap_cons, List.flatMap_cons, List.map_append, b2, e2]
  obtain ⟨g, e1, e2⟩ := key
  refine ⟨g, e1, fun s => ?_⟩
  rw [vecEntry_list, e2, List.getElem?_map]

theorem siteCoords_spec (k : ℕ) (procs : List (List ObsCell)) (sites : List ℕ) (h : ∀ s ∈ sites, s < (globalCells procs).length) :
    ∃ x, siteCoords k procs sites = some x ∧ x.len = sites.length ∧
      ∀ i s, sites[i]? = some s → ∀ c, (globalCells procs)[s]? = some c → x.val i = c.centroid k := by
  obtain ⟨g, e1, e2⟩ := coordParts_spec k procs
  obtain ⟨v, v1, v2, v3⟩ := scatter_sites (nc := 1) g sites (createScatter 1 sites).1 rfl (by
    intro s hs c hc
    have hc0 : c = 0 := by omega
    subst hc0
    rw [Nat.mul_one, Nat.add_zero, e2, List.getElem?_eq_getElem (h s hs)]
    rfl)
  obtain ⟨x, x1, x2, x3⟩ := loopM_inv (step := fun (x : Arr ℝ) i => (v.get i).bind fun y => x.put i y) (n := sites.length)
    (s := Arr.calloc sites.length 0) (fun i (x : Arr ℝ) => x.len = sites.length ∧ ∀ j < i, x.val j = v.val j) ⟨rfl, by intro j hj; omega⟩ (by
      intro i hi x hx
      have hvi : v.get i = some (v.val i) := by unfold Arr.get; rw [if_pos (by omega)]
      rw [hvi]
      show ∃ s', x.put i (v.val i) = some s' ∧ _
      unfold Arr.put
      rw [if_pos (by omega)]
      refine ⟨_, rfl, hx.1, ?_⟩
      intro j hj
      show Function.update x.val i (v.val i) j = _
      by_cases hji : j = i
      · subst hji; simp
      · rw [Function.update_of_ne hji]; exact hx.2 j (by omega))
  refine ⟨x, ?_, x2, ?_⟩
  · unfold siteCoords
    rw [e1]
    show (scatterV g _ _).bind _ = _
    rw [v1]
    exact x1
  · intro i s hs c hc
    have hi : i < sites.length := (List.getElem?_eq_some_iff.mp hs).1
    have h4 := v3 i s hs 0 (by omega)
    rw [Nat.mul_one, Nat.add_zero, e2, hc, Nat.one_mul, Nat.add_zero] at h4
    rw [x3 i hi]
    exact (Option.some.inj h4).symm

theorem siteCoords_undefined (k : ℕ) (procs : List (List ObsCell)) (sites : List ℕ) {s : ℕ} (hs : s ∈ sites)
    (h : (globalCells procs).length ≤ s) : siteCoords k procs sites = none := by
  obtain ⟨g, e1, e2⟩ := coordParts_spec k procs
  unfold siteCoords
  rw [e1]
  show (scatterV g _ _).bind _ = _
  obtain ⟨i, hi⟩ := List.mem_iff_getElem?.mp hs
  have hget := blockIndices_get (bs := 1) sites i 0 (by omega)
  rw [hi] at hget
  have hlt : i * 1 + 0 < (blockIndices 1 sites).length := (List.getElem?_eq_some_iff.mp hget).1
  rw [scatterV_undefined g (createScatter 1 sites).2 _ (p := (s * 1 + 0, i * 1 + 0)) (by
    rw [createScatter_pairs, List.mem_iff_getElem?]
    refine ⟨i * 1 + 0, ?_⟩
    rw [List.getElem?_zip_eq_some]
    exact ⟨hget, List.getElem?_range hlt⟩) (by
    show vecEntry g (s * 1 + 0) = none
    rw [Nat.mul_one, Nat.add_zero, e2, List.getElem?_eq_none h]; rfl)]
  rfl

end RDy
