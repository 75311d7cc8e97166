import Verif.Lemmas.Mesh
import Mathlib.Tactic.FieldSimp
import Mathlib.Tactic.NormNum
import Mathlib.Tactic.LinearCombination

/-!
Properties C16 (owned/local numbering), C17 (edge normals), C18 (bed slopes of cells), C19 (XDMF
connectivity) and C60 (projected cell areas).
-/

namespace RDy

/-! ### C16 -/

/-- Specification of an owned-cell numbering of `n` local cells with `k` owned ones: the map
`l` restricted to owned cells is an order isomorphism onto `0..k-1` with inverse `o`; ghosts are sent
beyond `k`. -/
structure OwnedNumbering (own : ℕ → Bool) (n k : ℕ) (l : ℕ → ℤ) (o : ℤ → ℤ) : Prop where
  /-- owned cells get an owned index, and going back gives the cell -/
  left : ∀ i < n, own i = true → 0 ≤ l i ∧ l i < k ∧ o (l i) = i
  /-- every owned index is used by one owned cell -/
  right : ∀ j : ℕ, j < k → ∃ i < n, own i = true ∧ o j = i ∧ l i = j
  /-- order is preserved -/
  mono : ∀ i j, i < j → j < n → own i = true → own j = true → l i < l j
  /-- a ghost has no owned index -/
  ghost : ∀ i < n, own i = false → ¬ (0 ≤ l i ∧ l i < k)

/-- C16: the index arrays are a correct owned-cell numbering, whatever the ownership pattern. -/
theorem C16_numbering (own : ℕ → Bool) (n : ℕ) :
    OwnedNumbering own n (numOwned own n) (numberCells own n).l2o (numberCells own n).o2l := by
  obtain ⟨a1, a2, a3, _⟩ := ownedLoop own n
  obtain ⟨_, b2, b3⟩ := ghostLoop own ((List.range n).foldl (numOwnedStep own) NumState.init) n
  have hl : ∀ i < n, own i = true → (numberCells own n).l2o i = ownedBelow own i := by
    intro i hi ho
    unfold numberCells
    rw [b2 i, if_neg (by simp [ho]), a2 i, if_pos ⟨hi, ho⟩]
  have ho2 : (numberCells own n).o2l
      = ((List.range n).foldl (numOwnedStep own) NumState.init).o2l := b3
  rw [numOwned_eq]
  refine ⟨?_, ?_, ?_, ?_⟩
  · intro i hi ho
    rw [hl i hi ho, ho2]
    exact ⟨by omega, by exact_mod_cast ownedBelow_lt own hi ho, a3 i hi ho⟩
  · intro j hj
    obtain ⟨i, hi, ho, he⟩ := exists_ownedBelow own n j hj
    refine ⟨i, hi, ho, ?_, ?_⟩
    · rw [ho2, ← he]; exact a3 i hi ho
    · rw [hl i hi ho, he]
  · intro i j hij hj hoi hoj
    rw [hl i (by omega) hoi, hl j hj hoj]
    exact_mod_cast ownedBelow_lt own hij hoi
  · intro i hi ho
    have : (numberCells own n).l2o i = ownedBelow own n + ghostBelow own i := by
      unfold numberCells
      rw [b2 i, if_pos ⟨hi, ho⟩, a1]
    rw [this]; omega

/-- C16: `local_to_owned` as a whole is a permutation of the local cells `0..n-1`: injective, and
every value in range is taken. -/
theorem C16_permutation (own : ℕ → Bool) (n : ℕ) :
    (∀ i < n, 0 ≤ (numberCells own n).l2o i ∧ (numberCells own n).l2o i < n) ∧
    (∀ i < n, ∀ j < n, (numberCells own n).l2o i = (numberCells own n).l2o j → i = j) ∧
    (∀ k : ℕ, k < n → ∃ i < n, (numberCells own n).l2o i = k) := by
  obtain ⟨a1, a2, a3, _⟩ := ownedLoop own n
  obtain ⟨_, b2, b3⟩ := ghostLoop own ((List.range n).foldl (numOwnedStep own) NumState.init) n
  have hl : ∀ i < n, own i = true → (numberCells own n).l2o i = ownedBelow own i := by
    intro i hi ho
    unfold numberCells
    rw [b2 i, if_neg (by simp [ho]), a2 i, if_pos ⟨hi, ho⟩]
  have hg : ∀ i < n, own i = false →
      (numberCells own n).l2o i = ownedBelow own n + ghostBelow own i := by
    intro i hi ho
    unfold numberCells
    rw [b2 i, if_pos ⟨hi, ho⟩, a1]
  have hadd := below_add own n
  refine ⟨?_, ?_, ?_⟩
  · intro i hi
    cases ho : own i with
    | true =>
      rw [hl i hi ho]
      have := ownedBelow_lt own hi ho
      omega
    | false =>
      rw [hg i hi ho]
      have := ghostBelow_lt own hi ho
      omega
  · intro i hi j hj h
    cases hoi : own i <;> cases hoj : own j
    · rw [hg i hi hoi, hg j hj hoj] at h
      rcases lt_trichotomy i j with hlt | he | hlt
      · have := ghostBelow_lt own hlt hoi; omega
      · exact he
      · have := ghostBelow_lt own hlt hoj; omega
    · rw [hg i hi hoi, hl j hj hoj] at h
      have := ownedBelow_lt own hj hoj; omega
    · rw [hl i hi hoi, hg j hj hoj] at h
      have := ownedBelow_lt own hi hoi; omega
    · rw [hl i hi hoi, hl j hj hoj] at h
      rcases lt_trichotomy i j with hlt | he | hlt
      · have := ownedBelow_lt own hlt hoi; omega
      · exact he
      · have := ownedBelow_lt own hlt hoj; omega
  · intro k hk
    by_cases hko : k < ownedBelow own n
    · obtain ⟨i, hi, ho, he⟩ := exists_ownedBelow own n k hko
      exact ⟨i, hi, by rw [hl i hi ho, he]⟩
    · obtain ⟨i, hi, ho, he⟩ := exists_ghostBelow own n (k - ownedBelow own n) (by omega)
      exact ⟨i, hi, by rw [hg i hi ho, he]; omega⟩

/-- C16: the per-owned-cell getters (centroids, areas) return, at owned index `k`, the value of the
cell `owned_to_local[k]`; and exactly `num_owned_cells` values. -/
theorem C16_getters {α : Type} (own : ℕ → Bool) (n : ℕ) (f : ℕ → α) :
    (ownedValues own n f).length = numOwned own n ∧
    ∀ k : ℕ, k < numOwned own n → ∃ i : ℕ, (numberCells own n).o2l k = i ∧
      (ownedValues own n f)[k]? = some (f i) := by
  have key : ∀ m i, i < m → own i = true →
      ((List.range m).filter fun j => own j)[ownedBelow own i]? = some i := by
    intro m
    induction m with
    | zero => intro i hi; omega
    | succ m ih =>
      intro i hi ho
      rw [List.range_succ, List.filter_append]
      by_cases him : i = m
      · subst him
        rw [List.getElem?_append_right (by exact le_refl _)]
        simp [ho, ownedBelow]
      · have hlt : i < m := by omega
        have h2 : ownedBelow own i < ((List.range m).filter fun j => own j).length :=
          ownedBelow_lt own hlt ho
        rw [List.getElem?_append_left h2]
        exact ih i hlt ho
  rw [ownedValues_eq, numOwned_eq]
  refine ⟨by rw [List.length_map]; rfl, ?_⟩
  intro k hk
  have hn := (C16_numbering own n).right k (by rw [numOwned_eq]; exact hk)
  obtain ⟨i, hi, ho, he⟩ := exists_ownedBelow own n k hk
  obtain ⟨_, _, a3, _⟩ := ownedLoop own n
  obtain ⟨_, _, b3⟩ := ghostLoop own ((List.range n).foldl (numOwnedStep own) NumState.init) n
  refine ⟨i, ?_, ?_⟩
  · have : (numberCells own n).o2l
      = ((List.range n).foldl (numOwnedStep own) NumState.init).o2l := b3
    rw [this, ← he]; exact a3 i hi ho
  · rw [List.getElem?_map, ← he, key n i hi ho]; rfl

/-- A mesh of 4 cells of which 1 and 3 are owned. -/
example : (numberCells (fun i => i == 1 || i == 3) 4).l2o 3 = 1 ∧
    (numberCells (fun i => i == 1 || i == 3) 4).l2o 0 = 2 ∧
    (numberCells (fun i => i == 1 || i == 3) 4).o2l 0 = 1 ∧
    numOwned (fun i => i == 1 || i == 3) 4 = 2 := by decide

/-! ### C17 -/

/-- Length in the plane. -/
theorem edgeLen_sq (a b : P2) : edgeLen a b ^ 2 = (b.x - a.x) ^ 2 + (b.y - a.y) ^ 2 :=
  Real.sq_sqrt (by positivity)

theorem edgeLen_pos {a b : P2} (h : a.x ≠ b.x ∨ a.y ≠ b.y) : 0 < edgeLen a b := by
  apply Real.sqrt_pos.mpr
  rcases h with h | h
  · have : 0 < (b.x - a.x) ^ 2 := by
      have : b.x - a.x ≠ 0 := sub_ne_zero.mpr (Ne.symm h)
      positivity
    positivity
  · have : 0 < (b.y - a.y) ^ 2 := by
      have : b.y - a.y ≠ 0 := sub_ne_zero.mpr (Ne.symm h)
      positivity
    positivity

theorem edgeLen_comm (a b : P2) : edgeLen a b = edgeLen b a := by
  unfold edgeLen; congr 1; ring

/-- What the loop computes, spelled out in terms of the sign of the dot product. -/
theorem edgeNormal_eq (v1 v2 l : P2) (r : Option P2) (h : v1.x ≠ v2.x ∨ v1.y ≠ v2.y) :
    edgeNormal v1 v2 l r = some (if edgeDot v1 v2 l r < 0
      then ((v1.y - v2.y) / edgeLen v1 v2, -(v1.x - v2.x) / edgeLen v1 v2)
      else ((v2.y - v1.y) / edgeLen v1 v2, -(v2.x - v1.x) / edgeLen v1 v2)) := by
  have hp := (edgeLen_pos h).ne'
  unfold edgeNormal orientedVertices
  split_ifs with h1
  · simp only [edgeLen_comm v2 v1, hp, if_false]
  · simp only [hp, if_false]

/-- C17: for distinct end points the stored `(cn, sn)` is a unit vector, orthogonal to the edge. -/
theorem C17_unit_orthogonal (v1 v2 l : P2) (r : Option P2) (h : v1.x ≠ v2.x ∨ v1.y ≠ v2.y) :
    ∃ c s, edgeNormal v1 v2 l r = some (c, s) ∧ c ^ 2 + s ^ 2 = 1 ∧
      c * (v2.x - v1.x) + s * (v2.y - v1.y) = 0 := by
  have hp := edgeLen_pos h
  have hsq := edgeLen_sq v1 v2
  have hpos : 0 < edgeLen v1 v2 ^ 2 := by positivity
  rw [edgeNormal_eq v1 v2 l r h]
  split_ifs with h1
  · refine ⟨_, _, rfl, ?_, ?_⟩
    · rw [div_pow, div_pow, ← add_div, div_eq_one_iff_eq hpos.ne', hsq]; ring
    · field_simp; ring
  · refine ⟨_, _, rfl, ?_, ?_⟩
    · rw [div_pow, div_pow, ← add_div, div_eq_one_iff_eq hpos.ne', hsq]; ring
    · field_simp; ring

example : ∃ c s, edgeNormal ⟨0, 0⟩ ⟨3, 4⟩ ⟨0, 1⟩ none = some (c, s) ∧ c ^ 2 + s ^ 2 = 1 ∧
    c * (3 - 0) + s * (4 - 0) = 0 :=
  C17_unit_orthogonal ⟨0, 0⟩ ⟨3, 4⟩ ⟨0, 1⟩ none (Or.inl (by norm_num))

/-- C17: the normal points from the left cell to the right cell (internal edge) or out of the left
cell through the middle of the edge (boundary edge): the projection of the corresponding vector on
the normal is nonnegative, and positive unless that vector is parallel to the edge. -/
theorem C17_direction (v1 v2 l : P2) (r : Option P2) (h : v1.x ≠ v2.x ∨ v1.y ≠ v2.y) (c s : ℝ)
    (hn : edgeNormal v1 v2 l r = some (c, s)) (tx ty : ℝ)
    (ht : match r with
      | some q => tx = q.x ∧ ty = q.y
      | none => tx = (v1.x + v2.x) / 2 ∧ ty = (v1.y + v2.y) / 2) :
    0 ≤ c * (tx - l.x) + s * (ty - l.y) ∧
    ((tx - l.x) * (v2.y - v1.y) ≠ (ty - l.y) * (v2.x - v1.x) →
      0 < c * (tx - l.x) + s * (ty - l.y)) := by
  have hp := edgeLen_pos h
  have hd : edgeDot v1 v2 l r = (tx - l.x) * (v2.y - v1.y) - (ty - l.y) * (v2.x - v1.x) := by
    unfold edgeDot l2r
    cases r with
    | some q => obtain ⟨rfl, rfl⟩ := ht; simp only; ring
    | none => obtain ⟨rfl, rfl⟩ := ht; simp only; ring
  have hval : c * (tx - l.x) + s * (ty - l.y) = |edgeDot v1 v2 l r| / edgeLen v1 v2 := by
    rw [edgeNormal_eq v1 v2 l r h] at hn
    split_ifs at hn with h1
    · simp only [Option.some.injEq, Prod.mk.injEq] at hn
      obtain ⟨rfl, rfl⟩ := hn
      rw [abs_of_neg h1, hd]; field_simp; ring
    · simp only [Option.some.injEq, Prod.mk.injEq] at hn
      obtain ⟨rfl, rfl⟩ := hn
      rw [abs_of_nonneg (not_lt.mp h1), hd]; field_simp; ring
  rw [hval]
  refine ⟨by positivity, fun hne => ?_⟩
  have : edgeDot v1 v2 l r ≠ 0 := by
    rw [hd]; intro h0; exact hne (by linarith)
  positivity

/-- a slanted edge between the cells with centroids (0, 1) and (3, 1) -/
example : ∃ c s, edgeNormal ⟨0, 0⟩ ⟨3, 4⟩ ⟨0, 1⟩ (some ⟨3, 1⟩) = some (c, s) ∧
    0 < c * ((3 : ℝ) - 0) + s * ((1 : ℝ) - 1) := by
  obtain ⟨c, s, h, -⟩ := C17_unit_orthogonal ⟨0, 0⟩ ⟨3, 4⟩ ⟨0, 1⟩ (some ⟨3, 1⟩) (Or.inl (by norm_num))
  exact ⟨c, s, h, (C17_direction _ _ _ _ (Or.inl (by norm_num)) c s h 3 1 ⟨rfl, rfl⟩).2 (by norm_num)⟩

theorem edgeDot_swap (v1 v2 l : P2) (r : Option P2) :
    edgeDot v2 v1 l r = -edgeDot v1 v2 l r := by
  unfold edgeDot l2r
  cases r <;> simp only <;> ring

/-- C17: listing the two vertices of an edge the other way round does not change its normal (unless
the cell-to-cell vector is parallel to the edge). -/
theorem C17_vertex_order (v1 v2 l : P2) (r : Option P2) (h : v1.x ≠ v2.x ∨ v1.y ≠ v2.y)
    (hd : edgeDot v1 v2 l r ≠ 0) : edgeNormal v2 v1 l r = edgeNormal v1 v2 l r := by
  rw [edgeNormal_eq v1 v2 l r h, edgeNormal_eq v2 v1 l r (by tauto), edgeDot_swap,
    edgeLen_comm v2 v1]
  rcases lt_or_gt_of_ne hd with h1 | h1
  · rw [if_neg (by linarith), if_pos h1]
  · rw [if_pos (by linarith), if_neg (by linarith)]

example : edgeNormal ⟨3, 4⟩ ⟨0, 0⟩ ⟨0, 1⟩ (some ⟨3, 1⟩) = edgeNormal ⟨0, 0⟩ ⟨3, 4⟩ ⟨0, 1⟩ (some ⟨3, 1⟩) :=
  C17_vertex_order _ _ _ _ (Or.inl (by norm_num)) (by norm_num [edgeDot, l2r])

/-- C17: exchanging the left and the right cell negates the normal. -/
theorem C17_cell_order (v1 v2 l r : P2) (h : v1.x ≠ v2.x ∨ v1.y ≠ v2.y)
    (hd : edgeDot v1 v2 l (some r) ≠ 0) (c s : ℝ)
    (hn : edgeNormal v1 v2 l (some r) = some (c, s)) :
    edgeNormal v1 v2 r (some l) = some (-c, -s) := by
  have hsw : edgeDot v1 v2 r (some l) = -edgeDot v1 v2 l (some r) := by
    unfold edgeDot l2r; simp only; ring
  rw [edgeNormal_eq v1 v2 l _ h] at hn
  rw [edgeNormal_eq v1 v2 r _ h, hsw]
  rcases lt_or_gt_of_ne hd with h1 | h1
  · rw [if_pos h1] at hn
    simp only [Option.some.injEq, Prod.mk.injEq] at hn
    obtain ⟨rfl, rfl⟩ := hn
    rw [if_neg (by linarith)]
    simp only [Option.some.injEq, Prod.mk.injEq]
    constructor <;> ring
  · rw [if_neg (by linarith)] at hn
    simp only [Option.some.injEq, Prod.mk.injEq] at hn
    obtain ⟨rfl, rfl⟩ := hn
    rw [if_pos (by linarith)]
    simp only [Option.some.injEq, Prod.mk.injEq]
    constructor <;> ring

example : ∃ c s, edgeNormal ⟨0, 0⟩ ⟨3, 4⟩ ⟨0, 1⟩ (some ⟨3, 1⟩) = some (c, s) ∧
    edgeNormal ⟨0, 0⟩ ⟨3, 4⟩ ⟨3, 1⟩ (some ⟨0, 1⟩) = some (-c, -s) := by
  obtain ⟨c, s, h, -⟩ := C17_unit_orthogonal ⟨0, 0⟩ ⟨3, 4⟩ ⟨0, 1⟩ (some ⟨3, 1⟩) (Or.inl (by norm_num))
  exact ⟨c, s, h, C17_cell_order _ _ _ _ (Or.inl (by norm_num)) (by norm_num [edgeDot, l2r]) c s h⟩

/-- C17: an edge with coincident end points (in the plane) gives a division by zero. -/
theorem C17_degenerate (v1 v2 l : P2) (r : Option P2) (hx : v1.x = v2.x) (hy : v1.y = v2.y) :
    edgeNormal v1 v2 l r = none := by
  have h1 : edgeLen v1 v2 = 0 := by unfold edgeLen; rw [hx, hy]; simp
  unfold edgeNormal orientedVertices
  split_ifs
  · simp only [edgeLen_comm v2 v1, h1, if_true]
  · simp only [h1, if_true]

/-- The vertical edge from (1,0) to (1,1) between cells at (0,½) and (2,½): the normal is (1,0). -/
example : edgeNormal ⟨1, 0⟩ ⟨1, 1⟩ ⟨0, 0.5⟩ (some ⟨2, 0.5⟩) = some (1, 0) := by
  have hl : edgeLen ⟨1, 0⟩ ⟨1, 1⟩ = 1 := by unfold edgeLen; norm_num
  rw [edgeNormal_eq _ _ _ _ (by norm_num), hl]
  have : ¬ edgeDot ⟨1, 0⟩ ⟨1, 1⟩ ⟨0, 0.5⟩ (some ⟨2, 0.5⟩) < 0 := by
    unfold edgeDot l2r; norm_num
  rw [if_neg this]; norm_num

/-- C17: the two lists of edge ids are increasing, disjoint, and together contain each edge; an edge
is in the first exactly if both of its cells exist. -/
theorem C17_edge_classes (cells : ℕ → ℤ × ℤ) (n : ℕ) :
    (splitEdges cells n).1.Pairwise (· < ·) ∧ (splitEdges cells n).2.Pairwise (· < ·) ∧
    (∀ e, e ∈ (splitEdges cells n).1 ↔ e < n ∧ 0 ≤ (cells e).1 ∧ 0 ≤ (cells e).2) ∧
    (∀ e, e ∈ (splitEdges cells n).2 ↔ e < n ∧ ¬ (0 ≤ (cells e).1 ∧ 0 ≤ (cells e).2)) ∧
    (splitEdges cells n).1.length + (splitEdges cells n).2.length = n := by
  induction n with
  | zero => simp [splitEdges]
  | succ n ih =>
    unfold splitEdges at *
    rw [List.range_succ, List.foldl_append, List.foldl_cons, List.foldl_nil]
    set s := (List.range n).foldl (fun s e =>
      if (cells e).2 ≥ 0 ∧ (cells e).1 ≥ 0 then (s.1 ++ [e], s.2) else (s.1, s.2 ++ [e]))
      (([], []) : List ℕ × List ℕ)
    obtain ⟨p1, p2, m1, m2, hlen⟩ := ih
    by_cases h : (cells n).2 ≥ 0 ∧ (cells n).1 ≥ 0
    · rw [if_pos h]
      refine ⟨?_, p2, ?_, ?_, ?_⟩
      · rw [List.pairwise_append]
        refine ⟨p1, by simp, ?_⟩
        intro a ha b hb
        rw [List.mem_singleton] at hb
        have := (m1 a).mp ha
        omega
      · intro e
        rw [List.mem_append, List.mem_singleton, m1 e]
        constructor
        · rintro (⟨h1, h2⟩ | rfl)
          · exact ⟨by omega, h2⟩
          · exact ⟨by omega, h.2, h.1⟩
        · rintro ⟨h1, h2⟩
          by_cases he : e = n
          · exact Or.inr he
          · exact Or.inl ⟨by omega, h2⟩
      · intro e
        rw [m2 e]
        constructor
        · rintro ⟨h1, h2⟩; exact ⟨by omega, h2⟩
        · rintro ⟨h1, h2⟩
          refine ⟨?_, h2⟩
          rcases Nat.lt_succ_iff_lt_or_eq.mp h1 with h3 | rfl
          · exact h3
          · exact absurd ⟨h.2, h.1⟩ h2
      · simp only [List.length_append, List.length_singleton]; omega
    · rw [if_neg h]
      refine ⟨p1, ?_, ?_, ?_, ?_⟩
      · rw [List.pairwise_append]
        refine ⟨p2, by simp, ?_⟩
        intro a ha b hb
        rw [List.mem_singleton] at hb
        have := (m2 a).mp ha
        omega
      · intro e
        rw [m1 e]
        constructor
        · rintro ⟨h1, h2⟩; exact ⟨by omega, h2⟩
        · rintro ⟨h1, h2⟩
          refine ⟨?_, h2⟩
          rcases Nat.lt_succ_iff_lt_or_eq.mp h1 with h3 | rfl
          · exact h3
          · exact absurd ⟨h2.2, h2.1⟩ h
      · intro e
        rw [List.mem_append, List.mem_singleton, m2 e]
        constructor
        · rintro (⟨h1, h2⟩ | rfl)
          · exact ⟨by omega, h2⟩
          · exact ⟨by omega, fun h3 => h ⟨h3.2, h3.1⟩⟩
        · rintro ⟨h1, h2⟩
          by_cases he : e = n
          · exact Or.inr he
          · exact Or.inl ⟨by omega, h2⟩
      · simp only [List.length_append, List.length_singleton]; omega

/-- Edges 0 (cells 0 and 1), 1 (boundary of cell 0) and 2 (right cell only). -/
example : splitEdges (fun e => if e = 0 then (0, 1) else if e = 1 then (0, -1) else (-1, 1)) 3
    = ([0], [1, 2]) := by decide

/-! ### C18 -/

/-- Twice the signed area of the projection of a triangle. -/
def cross2 (p0 p1 p2 : P3) : ℝ :=
  (p1.x - p0.x) * (p2.y - p0.y) - (p1.y - p0.y) * (p2.x - p0.x)

/-- The plane `z = a x + b y + c` contains `p`. -/
def onPlane (a b c : ℝ) (p : P3) : Prop := p.z = a * p.x + b * p.y + c

theorem slopes3_plane (p0 p1 p2 : P3) (a b c : ℝ) (h0 : onPlane a b c p0) (h1 : onPlane a b c p1)
    (h2 : onPlane a b c p2) (hd : cross2 p0 p1 p2 ≠ 0) : slopes3 p0 p1 p2 = some (a, b) := by
  unfold onPlane cross2 at *
  unfold slopes3
  have d1 : (p2.y - p0.y) * (p1.x - p0.x) - (p1.y - p0.y) * (p2.x - p0.x) ≠ 0 := by
    intro h; apply hd; linarith
  have d2 : (p2.x - p0.x) * (p1.y - p0.y) - (p1.x - p0.x) * (p2.y - p0.y) ≠ 0 := by
    intro h; apply hd; linarith
  rw [if_neg d1, if_neg d2, Option.some.injEq, Prod.mk.injEq]
  constructor
  · rw [div_eq_iff d1, h0, h1, h2]; ring
  · rw [div_eq_iff d2, h0, h1, h2]; ring

/-- C18: on a plane the slopes of a non-degenerate triangle are exact. The vertices may be listed in
any order (the hypothesis is symmetric). -/
theorem C18_triangle_plane (p0 p1 p2 : P3) (a b c : ℝ) (h0 : onPlane a b c p0)
    (h1 : onPlane a b c p1) (h2 : onPlane a b c p2) (hd : cross2 p0 p1 p2 ≠ 0) :
    triSlopes p0 p1 p2 = some (a, b) := by
  unfold triSlopes
  split_ifs
  · exact slopes3_plane p0 p1 p2 a b c h0 h1 h2 hd
  · refine slopes3_plane p0 p2 p1 a b c h0 h2 h1 ?_
    unfold cross2 at *
    intro h; apply hd; linarith

/-- Each non-degenerate triangle lies on a plane. -/
theorem exists_plane (p0 p1 p2 : P3) (hd : cross2 p0 p1 p2 ≠ 0) :
    ∃ a b c, onPlane a b c p0 ∧ onPlane a b c p1 ∧ onPlane a b c p2 := by
  refine ⟨((p2.y - p0.y) * (p1.z - p0.z) - (p1.y - p0.y) * (p2.z - p0.z)) / cross2 p0 p1 p2,
    ((p1.x - p0.x) * (p2.z - p0.z) - (p2.x - p0.x) * (p1.z - p0.z)) / cross2 p0 p1 p2,
    p0.z - ((p2.y - p0.y) * (p1.z - p0.z) - (p1.y - p0.y) * (p2.z - p0.z)) / cross2 p0 p1 p2 * p0.x
    - ((p1.x - p0.x) * (p2.z - p0.z) - (p2.x - p0.x) * (p1.z - p0.z)) / cross2 p0 p1 p2 * p0.y,
    ?_, ?_, ?_⟩
  · unfold onPlane; ring
  · unfold onPlane; field_simp; unfold cross2; ring
  · unfold onPlane; field_simp; unfold cross2; ring

/-- C18: for every non-degenerate triangle the slopes are those of the plane through its vertices:
the linear extension from any vertex reproduces the elevation of the other two. -/
theorem C18_triangle_interpolates (p0 p1 p2 : P3) (hd : cross2 p0 p1 p2 ≠ 0) :
    ∃ sx sy, triSlopes p0 p1 p2 = some (sx, sy) ∧
      p1.z - p0.z = sx * (p1.x - p0.x) + sy * (p1.y - p0.y) ∧
      p2.z - p0.z = sx * (p2.x - p0.x) + sy * (p2.y - p0.y) := by
  obtain ⟨a, b, c, h0, h1, h2⟩ := exists_plane p0 p1 p2 hd
  refine ⟨a, b, C18_triangle_plane p0 p1 p2 a b c h0 h1 h2 hd, ?_, ?_⟩
  · rw [h0, h1]; ring
  · rw [h0, h2]; ring

example : cross2 ⟨0, 0, 1⟩ ⟨1, 0, 3⟩ ⟨0, 1, 4⟩ ≠ 0 := by norm_num [cross2]

/-- C18: the slopes of a triangle do not depend on the order in which its vertices are listed (a
rotation and a transposition generate all orders). -/
theorem C18_vertex_order (p0 p1 p2 : P3) (hd : cross2 p0 p1 p2 ≠ 0) :
    triSlopes p1 p2 p0 = triSlopes p0 p1 p2 ∧ triSlopes p1 p0 p2 = triSlopes p0 p1 p2 := by
  obtain ⟨a, b, c, h0, h1, h2⟩ := exists_plane p0 p1 p2 hd
  rw [C18_triangle_plane p0 p1 p2 a b c h0 h1 h2 hd]
  constructor
  · refine C18_triangle_plane _ _ _ a b c h1 h2 h0 ?_
    unfold cross2 at *; intro h; apply hd; linarith
  · refine C18_triangle_plane _ _ _ a b c h1 h0 h2 ?_
    unfold cross2 at *; intro h; apply hd; linarith

/-- C18: a degenerate (in the plane) triangle gives a division by zero. -/
theorem C18_degenerate (p0 p1 p2 : P3) (hd : cross2 p0 p1 p2 = 0) : triSlopes p0 p1 p2 = none := by
  unfold cross2 at hd
  unfold triSlopes slopes3
  split_ifs with h1 h2 h3 h4 h5 <;> first | rfl | (exfalso; first | (apply h2; linarith) | (apply h4; linarith))

/-- three vertices on a line -/
example : triSlopes ⟨0, 0, 1⟩ ⟨1, 1, 3⟩ ⟨2, 2, 4⟩ = none := C18_degenerate _ _ _ (by norm_num [cross2])

theorem triArea_eq (a b c : P3) : triArea a b c = 0.5 * |cross2 a b c| := rfl

/-- C18: on a plane the slopes of a quadrilateral are exact, if none of the four triangles formed
with the centroid is degenerate; convexity and orientation are not needed. -/
theorem C18_quad_plane (v0 v1 v2 v3 m : P3) (a b c : ℝ) (h0 : onPlane a b c v0)
    (h1 : onPlane a b c v1) (h2 : onPlane a b c v2) (h3 : onPlane a b c v3) (hm : onPlane a b c m)
    (d0 : cross2 v0 v1 m ≠ 0) (d1 : cross2 v1 v2 m ≠ 0) (d2 : cross2 v2 v3 m ≠ 0)
    (d3 : cross2 v3 v0 m ≠ 0) : quadSlopes v0 v1 v2 v3 m = some (a, b) := by
  have pos : ∀ p q : P3, cross2 p q m ≠ 0 → 0 < triArea p q m := by
    intro p q h; rw [triArea_eq]; positivity
  have q0 := pos _ _ d0
  have q1 := pos _ _ d1
  have q2 := pos _ _ d2
  have q3 := pos _ _ d3
  unfold quadSlopes
  simp only [quadAccum, C18_triangle_plane v0 v1 m a b c h0 h1 hm d0,
    C18_triangle_plane v1 v2 m a b c h1 h2 hm d1, C18_triangle_plane v2 v3 m a b c h2 h3 hm d2,
    C18_triangle_plane v3 v0 m a b c h3 h0 hm d3]
  have hA : triArea v0 v1 m + (triArea v1 v2 m + (triArea v2 v3 m + (triArea v3 v0 m + 0))) ≠ 0 := by
    positivity
  rw [if_neg hA, Option.some.injEq, Prod.mk.injEq]
  constructor
  · rw [div_eq_iff hA]; ring
  · rw [div_eq_iff hA]; ring

/-- The slopes of a quadrilateral in general: the area-weighted mean of those of its four triangles,
so they lie between the smallest and the largest of these. -/
theorem C18_quad_between (v0 v1 v2 v3 m : P3) (s : Fin 4 → ℝ × ℝ) (lo hi : ℝ)
    (e0 : triSlopes v0 v1 m = some (s 0)) (e1 : triSlopes v1 v2 m = some (s 1))
    (e2 : triSlopes v2 v3 m = some (s 2)) (e3 : triSlopes v3 v0 m = some (s 3))
    (hlo : ∀ i, lo ≤ (s i).1) (hhi : ∀ i, (s i).1 ≤ hi)
    (hA : triArea v0 v1 m + triArea v1 v2 m + triArea v2 v3 m + triArea v3 v0 m ≠ 0) :
    ∃ sx sy, quadSlopes v0 v1 v2 v3 m = some (sx, sy) ∧ lo ≤ sx ∧ sx ≤ hi := by
  have pos : ∀ p q : P3, 0 ≤ triArea p q m := by
    intro p q; rw [triArea_eq]; positivity
  have q0 := pos v0 v1
  have q1 := pos v1 v2
  have q2 := pos v2 v3
  have q3 := pos v3 v0
  obtain ⟨s0, hs0⟩ : ∃ t, s 0 = t := ⟨_, rfl⟩
  obtain ⟨s1, hs1⟩ : ∃ t, s 1 = t := ⟨_, rfl⟩
  obtain ⟨s2, hs2⟩ : ∃ t, s 2 = t := ⟨_, rfl⟩
  obtain ⟨s3, hs3⟩ : ∃ t, s 3 = t := ⟨_, rfl⟩
  have l0 := hlo 0
  have l1 := hlo 1
  have l2 := hlo 2
  have l3 := hlo 3
  have u0 := hhi 0
  have u1 := hhi 1
  have u2 := hhi 2
  have u3 := hhi 3
  rw [hs0] at e0 l0 u0
  rw [hs1] at e1 l1 u1
  rw [hs2] at e2 l2 u2
  rw [hs3] at e3 l3 u3
  have hA' : triArea v0 v1 m + (triArea v1 v2 m + (triArea v2 v3 m + (triArea v3 v0 m + 0))) ≠ 0 := by
    intro h; apply hA; linarith
  have hpos : 0 < triArea v0 v1 m + (triArea v1 v2 m + (triArea v2 v3 m + (triArea v3 v0 m + 0))) :=
    lt_of_le_of_ne (by positivity) (Ne.symm hA')
  unfold quadSlopes
  obtain ⟨s0x, s0y⟩ := s0
  obtain ⟨s1x, s1y⟩ := s1
  obtain ⟨s2x, s2y⟩ := s2
  obtain ⟨s3x, s3y⟩ := s3
  simp only [quadAccum, e0, e1, e2, e3, if_neg hA']
  simp only at l0 l1 l2 l3 u0 u1 u2 u3
  refine ⟨_, _, rfl, ?_, ?_⟩
  · rw [le_div_iff₀ hpos]
    nlinarith [mul_le_mul_of_nonneg_left l0 q0, mul_le_mul_of_nonneg_left l1 q1,
      mul_le_mul_of_nonneg_left l2 q2, mul_le_mul_of_nonneg_left l3 q3]
  · rw [div_le_iff₀ hpos]
    nlinarith [mul_le_mul_of_nonneg_left u0 q0, mul_le_mul_of_nonneg_left u1 q1,
      mul_le_mul_of_nonneg_left u2 q2, mul_le_mul_of_nonneg_left u3 q3]

/-- The plane z = 2x + 3y + 1 over a triangle and over the unit square. -/
example : triSlopes ⟨0, 0, 1⟩ ⟨1, 0, 3⟩ ⟨0, 1, 4⟩ = some (2, 3) :=
  C18_triangle_plane _ _ _ 2 3 1 (by norm_num [onPlane]) (by norm_num [onPlane])
    (by norm_num [onPlane]) (by norm_num [cross2])

example : quadSlopes ⟨0, 0, 1⟩ ⟨1, 0, 3⟩ ⟨1, 1, 6⟩ ⟨0, 1, 4⟩ ⟨0.5, 0.5, 3.5⟩ = some (2, 3) :=
  C18_quad_plane _ _ _ _ _ 2 3 1 (by norm_num [onPlane]) (by norm_num [onPlane])
    (by norm_num [onPlane]) (by norm_num [onPlane]) (by norm_num [onPlane]) (by norm_num [cross2])
    (by norm_num [cross2]) (by norm_num [cross2]) (by norm_num [cross2])

/-! ### C60: projected areas -/

theorem shoelaceAux_translate (first a : P2) (vs : List P2) (t : P2) :
    shoelaceAux ⟨first.x + t.x, first.y + t.y⟩ ⟨a.x + t.x, a.y + t.y⟩
      (vs.map fun v => ⟨v.x + t.x, v.y + t.y⟩)
    = shoelaceAux first a vs + (t.y * (a.x - first.x) - t.x * (a.y - first.y)) := by
  induction vs generalizing a with
  | nil => simp only [List.map_nil, shoelaceAux]; ring
  | cons b vs ih =>
    simp only [List.map_cons, shoelaceAux]
    rw [ih b]; ring

/-- C60: the projected area does not change when the cell is translated. -/
theorem C60_translate (vs : List P2) (t : P2) :
    shoelaceArea (vs.map fun v => ⟨v.x + t.x, v.y + t.y⟩) = shoelaceArea vs := by
  cases vs with
  | nil => rfl
  | cons a vs =>
    simp only [List.map_cons, shoelaceArea, shoelaceAux_translate]
    congr 2; ring

/-- C60: for a triangle it is half the absolute value of the cross product of two sides. -/
theorem C60_triangle (a b c : P2) :
    shoelaceArea [a, b, c] =
      |(b.x - a.x) * (c.y - a.y) - (b.y - a.y) * (c.x - a.x)| / 2 := by
  simp only [shoelaceArea, shoelaceAux]
  congr 2; ring

/-- C60: for a quadrilateral it is half the absolute value of the cross product of the diagonals. -/
theorem C60_quad (a b c d : P2) :
    shoelaceArea [a, b, c, d] =
      |(c.x - a.x) * (d.y - b.y) - (c.y - a.y) * (d.x - b.x)| / 2 := by
  simp only [shoelaceArea, shoelaceAux]
  congr 2; ring

/-- C60: starting the listing at another vertex does not change the area. -/
theorem C60_rotate (a : P2) (vs : List P2) (h : vs ≠ []) :
    shoelaceArea (vs ++ [a]) = shoelaceArea (a :: vs) := by
  have app : ∀ (first b : P2) (l : List P2) (e : P2),
      shoelaceAux first b (l ++ [e]) + (e.x * e.y - e.x * e.y)
        = shoelaceAux e b l + (e.x * first.y - first.x * e.y) := by
    intro first b l e
    induction l generalizing b with
    | nil => simp only [List.nil_append, shoelaceAux]; ring
    | cons d l ih =>
      simp only [List.cons_append, shoelaceAux]
      linarith [ih d]
  cases vs with
  | nil => exact absurd rfl h
  | cons b vs =>
    simp only [List.cons_append, shoelaceArea, shoelaceAux]
    have := app b b vs a
    congr 2
    linarith

example : shoelaceArea [⟨2, 0⟩, ⟨2, 3⟩, ⟨0, 3⟩, ⟨0, 0⟩] = shoelaceArea [⟨0, 0⟩, ⟨2, 0⟩, ⟨2, 3⟩, ⟨0, 3⟩] :=
  C60_rotate ⟨0, 0⟩ [⟨2, 0⟩, ⟨2, 3⟩, ⟨0, 3⟩] (by simp)

/-- C60: a rectangle with sides `w` and `d` has area `w * d`. -/
theorem C60_rectangle (p : P2) (w d : ℝ) (hw : 0 ≤ w) (hd : 0 ≤ d) :
    shoelaceArea [p, ⟨p.x + w, p.y⟩, ⟨p.x + w, p.y + d⟩, ⟨p.x, p.y + d⟩] = w * d := by
  rw [C60_quad]
  have : (p.x + w - p.x) * (p.y + d - p.y) - (p.y + d - p.y) * (p.x - (p.x + w)) = 2 * (w * d) := by
    ring
  simp only [this]
  rw [abs_of_nonneg (by positivity)]; ring

example : shoelaceArea [⟨0, 0⟩, ⟨2, 0⟩, ⟨2, 3⟩, ⟨0, 3⟩] = 6 := by
  rw [C60_quad]; norm_num

/-! ### C19 -/

/-- The XDMF rule for a "Mixed" topology, restricted to the two types in use: 4 announces a triangle
(3 vertices follow), 5 a quadrilateral (4 vertices follow). -/
def xdmfDecode : ℕ → List ℤ → Option (List (List ℤ))
  | _, [] => some []
  | 0, _ :: _ => none
  | k + 1, t :: rest =>
    if t = 4 ∧ 3 ≤ rest.length then (xdmfDecode k (rest.drop 3)).map (rest.take 3 :: ·)
    else if t = 5 ∧ 4 ≤ rest.length then (xdmfDecode k (rest.drop 4)).map (rest.take 4 :: ·)
    else none

/-- A cell a mesh may have: 3 or 4 vertices with nonnegative global ids. -/
def triOrQuad (vs : List ℤ) : Prop := (vs.length = 3 ∨ vs.length = 4) ∧ ∀ v ∈ vs, 0 ≤ v

theorem connBlock_filter {vs : List ℤ} (h : triOrQuad vs) :
    (connBlock vs).filter (fun v => decide (v > -1)) = vs := by
  obtain ⟨hl, hv⟩ := h
  rcases hl with hl | hl
  · match vs, hl with
    | [a, b, c], _ =>
      have ha := hv a (by simp)
      have hb := hv b (by simp)
      have hc := hv c (by simp)
      have e : connBlock [a, b, c] = [a, b, c, -1] := rfl
      rw [e]
      simp [show (-1 : ℤ) < a by omega, show (-1 : ℤ) < b by omega, show (-1 : ℤ) < c by omega]
  · match vs, hl with
    | [a, b, c, d], _ =>
      have ha := hv a (by simp)
      have hb := hv b (by simp)
      have hc := hv c (by simp)
      have hd := hv d (by simp)
      have e : connBlock [a, b, c, d] = [a, b, c, d] := rfl
      rw [e]
      simp [show (-1 : ℤ) < a by omega, show (-1 : ℤ) < b by omega, show (-1 : ℤ) < c by omega,
        show (-1 : ℤ) < d by omega]

/-- C19: the array written for a list of triangles and quadrilaterals decodes to exactly these
cells, and its length is the announced one (one type entry per cell plus the vertices). -/
theorem C19_round_trip (cells : List (List ℤ)) (h : ∀ c ∈ cells, triOrQuad c) :
    ∃ flat, connFlat (cells.map connBlock) = some flat ∧
      flat.length = connCount (cells.map connBlock) ∧
      flat.length = (cells.map fun c => c.length + 1).sum ∧
      ∀ k, cells.length ≤ k → xdmfDecode k flat = some cells := by
  induction cells with
  | nil =>
    refine ⟨[], rfl, rfl, rfl, ?_⟩
    intro k _; cases k <;> rfl
  | cons c cs ih =>
    obtain ⟨flat, e, l1, l2, dec⟩ := ih fun x hx => h x (List.mem_cons_of_mem _ hx)
    have hc := h c List.mem_cons_self
    have hf := connBlock_filter hc
    have hcount : connCount ((c :: cs).map connBlock)
        = c.length + 1 + connCount (cs.map connBlock) := by
      unfold connCount
      simp only [List.map_cons, List.sum_cons, List.length_cons, hf]; omega
    rcases hc.1 with h3 | h4
    · refine ⟨4 :: c ++ flat, ?_, ?_, ?_, ?_⟩
      · simp only [List.map_cons, connFlat, hf, h3, if_true, e, Option.map_some]
      · rw [hcount, ← l1]; simp only [List.cons_append, List.length_cons, List.length_append]; omega
      · simp only [List.map_cons, List.sum_cons, ← l2, List.cons_append, List.length_cons,
          List.length_append]; omega
      · intro k hk
        obtain ⟨k, rfl⟩ : ∃ j, k = j + 1 := ⟨k - 1, by simp at hk; omega⟩
        have hlen : 3 ≤ (c ++ flat).length := by simp [h3]
        simp only [List.cons_append, xdmfDecode, hlen, and_self, if_true]
        rw [List.drop_append_of_le_length (by omega), List.take_append_of_le_length (by omega),
          List.drop_of_length_le (by omega), List.take_of_length_le (by omega), List.nil_append,
          dec k (by simp at hk; omega)]
        rfl
    · refine ⟨5 :: c ++ flat, ?_, ?_, ?_, ?_⟩
      · simp only [List.map_cons, connFlat, hf, h4, if_true, e, Option.map_some]; rfl
      · rw [hcount, ← l1]; simp only [List.cons_append, List.length_cons, List.length_append]; omega
      · simp only [List.map_cons, List.sum_cons, ← l2, List.cons_append, List.length_cons,
          List.length_append]; omega
      · intro k hk
        obtain ⟨k, rfl⟩ : ∃ j, k = j + 1 := ⟨k - 1, by simp at hk; omega⟩
        have hlen : 4 ≤ (c ++ flat).length := by simp [h4]
        have hne : ¬ ((5 : ℤ) = 4 ∧ 3 ≤ (c ++ flat).length) := by omega
        simp only [List.cons_append, xdmfDecode, hlen, hne, and_self, if_true, if_false]
        rw [List.drop_append_of_le_length (by omega), List.take_append_of_le_length (by omega),
          List.drop_of_length_le (by omega), List.take_of_length_le (by omega), List.nil_append,
          dec k (by simp at hk; omega)]
        rfl

example : ∃ flat, connFlat ([[0, 1, 2], [1, 3, 4, 2]].map connBlock) = some flat ∧
    xdmfDecode 2 flat = some [[0, 1, 2], [1, 3, 4, 2]] := by
  obtain ⟨flat, h, -, -, hd⟩ := C19_round_trip [[0, 1, 2], [1, 3, 4, 2]] (by unfold triOrQuad; decide)
  exact ⟨flat, h, hd 2 le_rfl⟩

/-- C19: hence two different meshes are never written as the same array. -/
theorem C19_injective (cs ds : List (List ℤ)) (hc : ∀ c ∈ cs, triOrQuad c)
    (hd : ∀ c ∈ ds, triOrQuad c) (h : connFlat (cs.map connBlock) = connFlat (ds.map connBlock)) :
    cs = ds := by
  obtain ⟨f, e1, _, _, d1⟩ := C19_round_trip cs hc
  obtain ⟨g, e2, _, _, d2⟩ := C19_round_trip ds hd
  rw [e1, e2] at h
  have hfg : f = g := Option.some.inj h
  subst hfg
  have a := d1 (max cs.length ds.length) (le_max_left _ _)
  have b := d2 (max cs.length ds.length) (le_max_right _ _)
  rw [a] at b
  exact Option.some.inj b

/-- C19: a cell with fewer than 3 (valid) vertices is rejected. -/
theorem C19_rejects (blocks : List (List ℤ)) (b : List ℤ) (hb : b ∈ blocks)
    (h : (b.filter fun v => v > -1).length < 3) : connFlat blocks = none := by
  induction blocks with
  | nil => simp at hb
  | cons x xs ih =>
    rcases List.mem_cons.mp hb with rfl | hx
    · unfold connFlat
      rw [if_neg (by omega), if_neg (by omega)]
    · unfold connFlat
      rw [ih hx]
      split_ifs <;> rfl

/-- One triangle and one quadrilateral. -/
example : connFlat ([[0, 1, 2], [1, 3, 4, 2]].map connBlock) = some [4, 0, 1, 2, 5, 1, 3, 4, 2] := by
  decide

example : ∀ c ∈ ([[0, 1, 2], [1, 3, 4, 2]] : List (List ℤ)), triOrQuad c := by
  unfold triOrQuad; decide

end RDy
