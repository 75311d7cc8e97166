import Verif.Model.Muscl
import Verif.Props.Conservation
import Mathlib.Order.Interval.Set.UnorderedInterval

/-!
Properties of the second-order reconstruction.
C49: limited face values create no new extrema. C50: least-squares gradients. C68: the limiter that is used.
-/

namespace RDy

/-! ### C49: face values -/

lemma minmod_uIcc (a b : ℝ) : minmod a b ∈ Set.uIcc 0 b := by
  unfold minmod
  rw [Set.mem_uIcc]
  by_cases h : a * b ≤ 0
  · rw [if_pos h]
    rcases le_total 0 b with hb | hb
    · exact Or.inl ⟨le_refl _, hb⟩
    · exact Or.inr ⟨hb, le_refl _⟩
  · rw [if_neg h]
    push Not at h
    rcases pos_and_pos_or_neg_and_neg_of_mul_pos h with ⟨ha, hb⟩ | ⟨ha, hb⟩
    · by_cases hlt : |a| < |b|
      · rw [if_pos hlt]
        rw [abs_of_pos ha, abs_of_pos hb] at hlt
        exact Or.inl ⟨ha.le, hlt.le⟩
      · rw [if_neg hlt]
        exact Or.inl ⟨hb.le, le_refl _⟩
    · by_cases hlt : |a| < |b|
      · rw [if_pos hlt]
        rw [abs_of_neg ha, abs_of_neg hb] at hlt
        exact Or.inr ⟨by linarith, ha.le⟩
      · rw [if_neg hlt]
        exact Or.inr ⟨le_refl _, hb.le⟩

lemma vanLeer_uIcc (a b : ℝ) : vanLeer a b ∈ Set.uIcc 0 (2 * b) := by
  unfold vanLeer
  rw [Set.mem_uIcc]
  by_cases h : a * b ≤ 0
  · rw [if_pos h]
    rcases le_total 0 b with hb | hb
    · exact Or.inl ⟨le_refl _, by linarith⟩
    · exact Or.inr ⟨by linarith, le_refl _⟩
  · rw [if_neg h]
    push Not at h
    rcases pos_and_pos_or_neg_and_neg_of_mul_pos h with ⟨ha, hb⟩ | ⟨ha, hb⟩
    · left
      refine ⟨by positivity, ?_⟩
      rw [div_le_iff₀ (by linarith)]
      nlinarith [mul_pos hb hb]
    · right
      have hs : a + b < 0 := by linarith
      refine ⟨?_, ?_⟩
      · rw [le_div_iff_of_neg hs]
        nlinarith [mul_pos_of_neg_of_neg hb hb]
      · exact div_nonpos_of_nonneg_of_nonpos (by nlinarith) hs.le

/-- C49 (minmod): on each side the value on the edge lies between the value of the cell and the mean of the
two cells, whatever the gradients are. -/
theorem C49_minmod (qL qR eL eR : ℝ) :
    (faceValues .minmod qL qR eL eR).1 ∈ Set.uIcc qL ((qL + qR) / 2) ∧
    (faceValues .minmod qL qR eL eR).2 ∈ Set.uIcc qR ((qL + qR) / 2) := by
  have h1 := minmod_uIcc eL (0.5 * (qR - qL))
  have h2 := minmod_uIcc eR (-0.5 * (qR - qL))
  rw [Set.mem_uIcc] at h1 h2 ⊢
  rw [Set.mem_uIcc]
  simp only [faceValues, limitSlope]
  generalize minmod eL (0.5 * (qR - qL)) = v at *
  generalize minmod eR (-0.5 * (qR - qL)) = w at *
  constructor
  · rcases h1 with h | h
    · left; constructor <;> linarith [h.1, h.2]
    · right; constructor <;> linarith [h.1, h.2]
  · rcases h2 with h | h
    · left; constructor <;> linarith [h.1, h.2]
    · right; constructor <;> linarith [h.1, h.2]

/-- Here the gradient of the left cell is limited and that of the right cell has the wrong sign. -/
example : faceValues .minmod 1 2 3 1 = (1.5, 2) := by
  norm_num [faceValues, limitSlope, minmod, abs_of_pos]

/-- C49 (van Leer): on each side the value on the edge lies between the values of the two cells. -/
theorem C49_vanleer (qL qR eL eR : ℝ) :
    (faceValues .vanLeer qL qR eL eR).1 ∈ Set.uIcc qL qR ∧
    (faceValues .vanLeer qL qR eL eR).2 ∈ Set.uIcc qL qR := by
  have h1 := vanLeer_uIcc eL (0.5 * (qR - qL))
  have h2 := vanLeer_uIcc eR (-0.5 * (qR - qL))
  rw [Set.mem_uIcc] at h1 h2 ⊢
  rw [Set.mem_uIcc]
  simp only [faceValues, limitSlope]
  generalize vanLeer eL (0.5 * (qR - qL)) = v at *
  generalize vanLeer eR (-0.5 * (qR - qL)) = w at *
  constructor
  · rcases h1 with h | h
    · left; constructor <;> linarith [h.1, h.2]
    · right; constructor <;> linarith [h.1, h.2]
  · rcases h2 with h | h
    · right; constructor <;> linarith [h.1, h.2]
    · left; constructor <;> linarith [h.1, h.2]

example : faceValues .vanLeer 1 2 1.5 (-0.5) = (1.75, 1.5) := by
  norm_num [faceValues, limitSlope, vanLeer]

/-- C49: with a limiter the values on the edge lie between the values of the two cells. -/
theorem C49_no_new_extrema (l : Limiter) (hl : l ≠ .none) (qL qR eL eR : ℝ) :
    (faceValues l qL qR eL eR).1 ∈ Set.uIcc qL qR ∧ (faceValues l qL qR eL eR).2 ∈ Set.uIcc qL qR := by
  cases l with
  | none => exact absurd rfl hl
  | vanLeer => exact C49_vanleer qL qR eL eR
  | minmod =>
    obtain ⟨h1, h2⟩ := C49_minmod qL qR eL eR
    rw [Set.mem_uIcc] at h1 h2 ⊢
    rw [Set.mem_uIcc]
    constructor
    · rcases h1 with h | h
      · left; constructor <;> linarith [h.1, h.2]
      · right; constructor <;> linarith [h.1, h.2]
    · rcases h2 with h | h
      · right; constructor <;> linarith [h.1, h.2]
      · left; constructor <;> linarith [h.1, h.2]

example : (Limiter.vanLeer ≠ .none) ∧ (Limiter.minmod ≠ .none) := by decide

/-- C49: with a limiter equal neighbours give back the value of the cells. -/
theorem C49_equal (l : Limiter) (hl : l ≠ .none) (q eL eR : ℝ) : faceValues l q q eL eR = (q, q) := by
  obtain ⟨h1, h2⟩ := C49_no_new_extrema l hl q q eL eR
  rw [Set.uIcc_self, Set.mem_singleton_iff] at h1 h2
  exact Prod.ext h1 h2

example : faceValues .minmod 3 3 1 (-4) = (3, 3) := C49_equal _ (by decide) _ _ _

/-- C49: depths on an edge are never negative, with or without limiter; with a limiter and non-negative
depths in the cells the cut-off changes nothing. -/
theorem C49_depths (l : Limiter) (hL hR eL eR : ℝ) :
    (0 ≤ (faceDepths l hL hR eL eR).1 ∧ 0 ≤ (faceDepths l hL hR eL eR).2) ∧
    (l ≠ .none → 0 ≤ hL → 0 ≤ hR → faceDepths l hL hR eL eR = faceValues l hL hR eL eR) := by
  refine ⟨⟨le_max_left _ _, le_max_left _ _⟩, ?_⟩
  intro hl h0 h1
  obtain ⟨a, b⟩ := C49_no_new_extrema l hl hL hR eL eR
  have ha : 0 ≤ (faceValues l hL hR eL eR).1 := by
    rw [Set.mem_uIcc] at a
    rcases a with h | h <;> linarith [h.1, h.2]
  have hb : 0 ≤ (faceValues l hL hR eL eR).2 := by
    rw [Set.mem_uIcc] at b
    rcases b with h | h <;> linarith [h.1, h.2]
  exact Prod.ext (max_eq_right ha) (max_eq_right hb)

example : faceDepths .minmod 1 0 (-3) 4 = (0.5, 0.5) := by
  norm_num [faceDepths, faceValues, limitSlope, minmod, abs_of_pos, abs_of_neg]

/-- C49: the values on the edge do not depend on which of the two cells is called the left one. -/
theorem C49_orientation (l : Limiter) (qL qR eL eR : ℝ) :
    faceValues l qR qL eR eL = ((faceValues l qL qR eL eR).2, (faceValues l qL qR eL eR).1) := by
  have h1 : (0.5 : ℝ) * (qL - qR) = -0.5 * (qR - qL) := by ring
  have h2 : (-0.5 : ℝ) * (qL - qR) = 0.5 * (qR - qL) := by ring
  simp only [faceValues, h1, h2]

example : faceValues .minmod 2 1 1 3 = (2, 1.5) := by
  rw [C49_orientation]
  norm_num [faceValues, limitSlope, minmod, abs_of_pos]

/-- C49: with minmod the two values on the edge are in the same order as the values of the cells. -/
theorem C49_ordered (qL qR eL eR : ℝ) (h : qL ≤ qR) :
    (faceValues .minmod qL qR eL eR).1 ≤ (faceValues .minmod qL qR eL eR).2 := by
  obtain ⟨h1, h2⟩ := C49_minmod qL qR eL eR
  rw [Set.mem_uIcc] at h1 h2
  rcases h1 with a | a <;> rcases h2 with b | b <;> linarith [a.1, a.2, b.1, b.2]

example : (faceValues .minmod 1 2 3 1).1 ≤ (faceValues .minmod 1 2 3 1).2 :=
  C49_ordered _ _ _ _ (by norm_num)

/-- With van Leer the order can be reversed: the values cross. -/
theorem C49_vanleer_crosses : ∃ qL qR eL eR, qL < qR ∧
    (faceValues .vanLeer qL qR eL eR).2 < (faceValues .vanLeer qL qR eL eR).1 :=
  ⟨1, 2, 1.5, -1.5, by norm_num, by norm_num [faceValues, limitSlope, vanLeer]⟩

/-- Without a limiter the statement fails: new extrema appear. -/
theorem C49_none_overshoots : ∃ qL qR eL eR, 0 < qL ∧ qL < qR ∧
    qR < (faceValues .none qL qR eL eR).1 ∧ (faceValues .none qL qR eL eR).2 < 0 :=
  ⟨1, 2, 2, -3, by norm_num, by norm_num, by norm_num [faceValues, limitSlope],
    by norm_num [faceValues, limitSlope]⟩

/-- The linear function with gradient `(a, b)` and value `k` at the origin. -/
def linear (a b k x y : ℝ) : ℝ := a * x + b * y + k

/-- C49 (second order): for a linear field whose gradients are known, the values on both sides of an edge are
the values of the field at the midpoint of the edge: without limiter on every mesh, with a limiter wherever
the midpoint of the edge is the midpoint of the two centroids. -/
theorem C49_second_order (l : Limiter) (m : LSMesh) (q gx gy : ℕ → ℝ) (e : MEdge) (a b k : ℝ)
    (hq : ∀ c, q c = linear a b k (m.x c) (m.y c))
    (hg : ∀ c, gx c = a ∧ gy c = b)
    (hl : l ≠ .none → 0.5 * (e.x0 + e.x1) = 0.5 * (m.x e.left + m.x e.right) ∧
      0.5 * (e.y0 + e.y1) = 0.5 * (m.y e.left + m.y e.right)) :
    faceOf l m q gx gy e =
      (linear a b k (0.5 * (e.x0 + e.x1)) (0.5 * (e.y0 + e.y1)),
       linear a b k (0.5 * (e.x0 + e.x1)) (0.5 * (e.y0 + e.y1))) := by
  have hmm : ∀ t : ℝ, minmod t t = t := by
    intro t
    unfold minmod
    by_cases h : t * t ≤ 0
    · have : t = 0 := by nlinarith [mul_self_nonneg t, mul_self_eq_zero.mp (le_antisymm h (mul_self_nonneg t))]
      rw [if_pos h, this]
    · rw [if_neg h, if_neg (lt_irrefl _)]
  have hvl : ∀ t : ℝ, vanLeer t t = t := by
    intro t
    unfold vanLeer
    by_cases h : t * t ≤ 0
    · have : t = 0 := mul_self_eq_zero.mp (le_antisymm h (mul_self_nonneg t))
      rw [if_pos h, this]
    · rw [if_neg h]
      have : t ≠ 0 := by
        rintro rfl
        exact h (by norm_num)
      field_simp
      ring
  have key : l ≠ .none →
      extrapolation m e.left (gx e.left) (gy e.left) (0.5 * (e.x0 + e.x1)) (0.5 * (e.y0 + e.y1)) =
        0.5 * (q e.right - q e.left) ∧
      extrapolation m e.right (gx e.right) (gy e.right) (0.5 * (e.x0 + e.x1)) (0.5 * (e.y0 + e.y1)) =
        -0.5 * (q e.right - q e.left) := by
    intro h
    obtain ⟨h1, h2⟩ := hl h
    simp only [extrapolation, hq, linear, (hg _).1, (hg _).2, h1, h2]
    constructor <;> ring
  cases l with
  | none =>
    simp only [faceOf, faceValues, limitSlope, extrapolation, hq, linear, (hg _).1, (hg _).2]
    ext <;> simp only <;> ring
  | minmod =>
    obtain ⟨k1, k2⟩ := key (by decide)
    obtain ⟨h1, h2⟩ := hl (by decide)
    unfold faceOf
    rw [k1, k2]
    simp only [faceValues, limitSlope, hmm, h1, h2, hq, linear]
    ext <;> simp only <;> ring
  | vanLeer =>
    obtain ⟨k1, k2⟩ := key (by decide)
    obtain ⟨h1, h2⟩ := hl (by decide)
    unfold faceOf
    rw [k1, k2]
    simp only [faceValues, limitSlope, hvl, h1, h2, hq, linear]
    ext <;> simp only <;> ring

/-- Two unit squares side by side and the edge between them. -/
def exTwoSquares : LSMesh := ⟨fun c => if c = 0 then 0 else 1, fun _ => 0, [(0, 1)]⟩

/-- The edge between the two squares. -/
noncomputable def exMEdge : MEdge := ⟨0, 1, 1 / 2, -1 / 2, 1 / 2, 1 / 2, true, 1, 0, 1⟩

example : faceOf .minmod exTwoSquares (fun c => if c = 0 then 1 else 3) (fun _ => 2) (fun _ => 5) exMEdge =
    (2, 2) := by
  refine (C49_second_order .minmod exTwoSquares _ _ _ exMEdge 2 5 1 ?_ (fun _ => ⟨rfl, rfl⟩) ?_).trans ?_
  · intro c
    by_cases h : c = 0 <;> simp only [exTwoSquares, linear, h, if_true, if_false] <;> norm_num
  · intro _
    simp only [exTwoSquares, exMEdge]
    norm_num
  · simp only [exMEdge, linear]
    norm_num

/-- C49 (whole edge): the depth given to the Riemann solver on each side of an edge, with a limiter and
non-negative depths in the cells, lies between the depths of the two cells, and the discharges between the
discharges of the two cells. -/
theorem C49_edge (l : Limiter) (hl : l ≠ .none) (m : LSMesh) (q : CellField) (g : CellField × CellField)
    (e : MEdge) (h0 : 0 ≤ q.h e.left) (h1 : 0 ≤ q.h e.right) (s : Cons)
    (hs : s = (reconstructEdge l m q g e).qL ∨ s = (reconstructEdge l m q g e).qR) :
    0 ≤ s.h ∧ s.h ∈ Set.uIcc (q.h e.left) (q.h e.right) ∧
    s.hu ∈ Set.uIcc (q.hu e.left) (q.hu e.right) ∧ s.hv ∈ Set.uIcc (q.hv e.left) (q.hv e.right) := by
  have A : ∀ x, x ∈ Set.uIcc (q.h e.left) (q.h e.right) → 0 ≤ x := by
    intro x hx
    rw [Set.mem_uIcc] at hx
    rcases hx with h | h <;> linarith [h.1, h.2]
  have B := C49_no_new_extrema l hl (q.h e.left) (q.h e.right)
    (extrapolation m e.left (g.1.h e.left) (g.2.h e.left) (0.5 * (e.x0 + e.x1)) (0.5 * (e.y0 + e.y1)))
    (extrapolation m e.right (g.1.h e.right) (g.2.h e.right) (0.5 * (e.x0 + e.x1)) (0.5 * (e.y0 + e.y1)))
  have C := C49_no_new_extrema l hl (q.hu e.left) (q.hu e.right)
    (extrapolation m e.left (g.1.hu e.left) (g.2.hu e.left) (0.5 * (e.x0 + e.x1)) (0.5 * (e.y0 + e.y1)))
    (extrapolation m e.right (g.1.hu e.right) (g.2.hu e.right) (0.5 * (e.x0 + e.x1)) (0.5 * (e.y0 + e.y1)))
  have D := C49_no_new_extrema l hl (q.hv e.left) (q.hv e.right)
    (extrapolation m e.left (g.1.hv e.left) (g.2.hv e.left) (0.5 * (e.x0 + e.x1)) (0.5 * (e.y0 + e.y1)))
    (extrapolation m e.right (g.1.hv e.right) (g.2.hv e.right) (0.5 * (e.x0 + e.x1)) (0.5 * (e.y0 + e.y1)))
  rcases hs with rfl | rfl
  · simp only [reconstructEdge, faceOf]
    rw [max_eq_right (A _ B.1)]
    exact ⟨A _ B.1, B.1, C.1, D.1⟩
  · simp only [reconstructEdge, faceOf]
    rw [max_eq_right (A _ B.2)]
    exact ⟨A _ B.2, B.2, C.2, D.2⟩

example : ∃ q : CellField, 0 ≤ q.h exMEdge.left ∧ 0 ≤ q.h exMEdge.right ∧ q.h exMEdge.left < q.h exMEdge.right :=
  ⟨⟨fun c => if c = 0 then 1 else 2, fun _ => 0, fun _ => 0⟩, by simp [exMEdge], by simp [exMEdge],
    by simp [exMEdge]⟩

/-! ### C50: least-squares gradients -/

/-- A neighbour as seen from a cell: offset of the centroid and difference of the variable. -/
structure Neighbour where
  dx : ℝ
  dy : ℝ
  dq : ℝ

/-- Cell `d` as seen from cell `c`. -/
def neighbour (m : LSMesh) (q : ℕ → ℝ) (c d : ℕ) : Neighbour := ⟨m.x d - m.x c, m.y d - m.y c, q d - q c⟩

/-- All neighbours of cell `c`: the cells on the other side of its edges. -/
def neighbours (m : LSMesh) (q : ℕ → ℝ) (c : ℕ) : List Neighbour :=
  m.edges.flatMap fun e =>
    (if e.1 = c then [neighbour m q c e.2] else []) ++ (if e.2 = c then [neighbour m q c e.1] else [])

/-- Distance of a neighbour. -/
noncomputable def Neighbour.dist (s : Neighbour) : ℝ := √(s.dx * s.dx + s.dy * s.dy)

/-- The error of the gradient `(a, b)`: squares of the differences that it fails to explain, weighted with the
inverse distances. -/
noncomputable def lsError (S : List Neighbour) (a b : ℝ) : ℝ :=
  (S.map fun s => 1 / s.dist * (s.dq - (a * s.dx + b * s.dy)) ^ 2).sum

/-- Sum of a quantity over the neighbours. -/
noncomputable def nsum (S : List Neighbour) (φ : Neighbour → ℝ) : ℝ := (S.map φ).sum

lemma nsum_congr (S : List Neighbour) (φ ψ : Neighbour → ℝ) (h : ∀ s, φ s = ψ s) : nsum S φ = nsum S ψ := by
  rw [show φ = ψ from funext h]

lemma nsum_lin (S : List Neighbour) (φ ψ : Neighbour → ℝ) (r : ℝ) :
    nsum S (fun s => r * φ s + ψ s) = r * nsum S φ + nsum S ψ := by
  induction S with
  | nil => simp [nsum]
  | cons a S ih =>
    simp only [nsum, List.map_cons, List.sum_cons] at ih ⊢
    rw [ih]
    ring

lemma nsum_nonneg (S : List Neighbour) (φ : Neighbour → ℝ) (h : ∀ s, 0 ≤ φ s) : 0 ≤ nsum S φ := by
  induction S with
  | nil => simp [nsum]
  | cons a S ih =>
    simp only [nsum, List.map_cons, List.sum_cons] at ih ⊢
    linarith [h a]

/-- Weight of a neighbour. -/
noncomputable def Neighbour.w (s : Neighbour) : ℝ := 1 / s.dist

lemma Neighbour.w_nonneg (s : Neighbour) : 0 ≤ s.w := one_div_nonneg.mpr (Real.sqrt_nonneg _)

lemma lsW_eq (m : LSMesh) (q : ℕ → ℝ) (e : ℕ × ℕ) :
    lsW m e = (neighbour m q e.1 e.2).w ∧ lsW m e = (neighbour m q e.2 e.1).w := by
  have h : ∀ d : ℝ, 0 ≤ d → (if d > 0 then 1 / d else 0) = 1 / d := by
    intro d hd
    by_cases hp : d > 0
    · rw [if_pos hp]
    · have : d = 0 := le_antisymm (not_lt.mp hp) hd
      rw [if_neg hp, this, div_zero]
  constructor
  · unfold lsW
    rw [h _ (Real.sqrt_nonneg _)]
    rfl
  · unfold lsW
    rw [h _ (Real.sqrt_nonneg _)]
    unfold Neighbour.w Neighbour.dist neighbour lsDx lsDy
    simp only
    congr 2
    ring

lemma foldl_bump (es : List (ℕ × ℕ)) (u v : ℕ × ℕ → ℝ) (c : ℕ) (a : ℕ → ℝ) :
    es.foldl (fun a e => bump (bump a e.1 (u e)) e.2 (v e)) a c =
      a c + (es.map fun e => (if e.1 = c then u e else 0) + (if e.2 = c then v e else 0)).sum := by
  induction es generalizing a with
  | nil => simp
  | cons e es ih =>
    rw [List.foldl_cons, ih, List.map_cons, List.sum_cons]
    have : bump (bump a e.1 (u e)) e.2 (v e) c =
        a c + ((if e.1 = c then u e else 0) + (if e.2 = c then v e else 0)) := by
      unfold bump
      by_cases h1 : e.1 = c <;> by_cases h2 : e.2 = c
      · rw [if_pos h2.symm, if_pos h1.symm, if_pos h1, if_pos h2]; ring
      · rw [if_neg (Ne.symm h2), if_pos h1.symm, if_pos h1, if_neg h2]; ring
      · rw [if_pos h2.symm, if_neg (Ne.symm h1), if_neg h1, if_pos h2]; ring
      · rw [if_neg (Ne.symm h2), if_neg (Ne.symm h1), if_neg h1, if_neg h2]; ring
    rw [this]
    ring

lemma nsum_neighbours (m : LSMesh) (q : ℕ → ℝ) (c : ℕ) (φ : Neighbour → ℝ) :
    nsum (neighbours m q c) φ =
      (m.edges.map fun e => (if e.1 = c then φ (neighbour m q c e.2) else 0) +
        (if e.2 = c then φ (neighbour m q c e.1) else 0)).sum := by
  unfold neighbours
  induction m.edges with
  | nil => simp [nsum]
  | cons e es ih =>
    rw [List.flatMap_cons, List.map_cons, List.sum_cons, ← ih]
    simp only [nsum, List.map_append, List.sum_append]
    by_cases h1 : e.1 = c <;> by_cases h2 : e.2 = c <;> simp [h1, h2]

lemma accumulate_eq (m : LSMesh) (q : ℕ → ℝ) (c : ℕ) (v : ℕ × ℕ → ℝ) (φ : Neighbour → ℝ)
    (h : ∀ e : ℕ × ℕ, v e = φ (neighbour m q e.1 e.2) ∧ v e = φ (neighbour m q e.2 e.1)) :
    lsAccumulate m v c = nsum (neighbours m q c) φ := by
  unfold lsAccumulate
  rw [foldl_bump, nsum_neighbours, zero_add]
  congr 1
  apply List.map_congr_left
  intro e _
  have a1 : (if e.1 = c then v e else 0) = if e.1 = c then φ (neighbour m q c e.2) else 0 := by
    by_cases hc : e.1 = c
    · rw [if_pos hc, if_pos hc, ← hc, (h e).1]
    · rw [if_neg hc, if_neg hc]
  have a2 : (if e.2 = c then v e else 0) = if e.2 = c then φ (neighbour m q c e.1) else 0 := by
    by_cases hc : e.2 = c
    · rw [if_pos hc, if_pos hc, ← hc, (h e).2]
    · rw [if_neg hc, if_neg hc]
  rw [a1, a2]

lemma lsM_eq (m : LSMesh) (q : ℕ → ℝ) (c : ℕ) :
    lsM00 m c = nsum (neighbours m q c) (fun s => s.w * s.dx * s.dx) ∧
    lsM01 m c = nsum (neighbours m q c) (fun s => s.w * s.dx * s.dy) ∧
    lsM11 m c = nsum (neighbours m q c) (fun s => s.w * s.dy * s.dy) := by
  refine ⟨?_, ?_, ?_⟩
  all_goals
    apply accumulate_eq
    intro e
    constructor
    · rw [(lsW_eq m q e).1]
      rfl
    · rw [(lsW_eq m q e).2]
      simp only [neighbour, lsDx, lsDy]
      ring

lemma lsGrad_eq (m : LSMesh) (q : ℕ → ℝ) (c : ℕ) :
    lsGradX m q c = (lsInv m c).1 * nsum (neighbours m q c) (fun s => s.w * s.dx * s.dq) +
      (lsInv m c).2.1 * nsum (neighbours m q c) (fun s => s.w * s.dy * s.dq) ∧
    lsGradY m q c = (lsInv m c).2.1 * nsum (neighbours m q c) (fun s => s.w * s.dx * s.dq) +
      (lsInv m c).2.2 * nsum (neighbours m q c) (fun s => s.w * s.dy * s.dq) := by
  have pull : ∀ r : ℝ, ∀ φ : Neighbour → ℝ, r * nsum (neighbours m q c) φ =
      nsum (neighbours m q c) (fun s => r * φ s) := by
    intro r φ
    have := nsum_lin (neighbours m q c) φ (fun _ => 0) r
    have z : nsum (neighbours m q c) (fun _ => (0 : ℝ)) = 0 := by simp [nsum]
    rw [z, add_zero] at this
    rw [← this]
    exact nsum_congr _ _ _ fun s => by ring
  have key : ∀ (r t : ℝ) (k : ℕ × ℕ → ℕ → ℝ),
      (∀ e, k e c = r * (lsW m e * lsDx m e) + t * (lsW m e * lsDy m e)) →
      m.edges.foldl (fun g e => bump (bump g e.1 (k e e.1 * (q e.2 - q e.1))) e.2 (k e e.2 * (q e.2 - q e.1)))
        (fun _ => (0 : ℝ)) c =
      r * nsum (neighbours m q c) (fun s => s.w * s.dx * s.dq) +
      t * nsum (neighbours m q c) (fun s => s.w * s.dy * s.dq) := by
    intro r t k hk
    rw [pull t, ← nsum_lin, foldl_bump m.edges (fun e => k e e.1 * (q e.2 - q e.1))
      (fun e => k e e.2 * (q e.2 - q e.1)), nsum_neighbours, zero_add]
    congr 1
    apply List.map_congr_left
    intro e _
    have a1 : (if e.1 = c then k e e.1 * (q e.2 - q e.1) else 0) =
        if e.1 = c then r * ((neighbour m q c e.2).w * (neighbour m q c e.2).dx * (neighbour m q c e.2).dq) +
          t * ((neighbour m q c e.2).w * (neighbour m q c e.2).dy * (neighbour m q c e.2).dq) else 0 := by
      by_cases hc : e.1 = c
      · rw [if_pos hc, if_pos hc]
        have := hk e
        rw [← hc] at this ⊢
        rw [this, (lsW_eq m q e).1]
        generalize (neighbour m q e.1 e.2).w = w
        simp only [neighbour, lsDx, lsDy]
        ring
      · rw [if_neg hc, if_neg hc]
    have a2 : (if e.2 = c then k e e.2 * (q e.2 - q e.1) else 0) =
        if e.2 = c then r * ((neighbour m q c e.1).w * (neighbour m q c e.1).dx * (neighbour m q c e.1).dq) +
          t * ((neighbour m q c e.1).w * (neighbour m q c e.1).dy * (neighbour m q c e.1).dq) else 0 := by
      by_cases hc : e.2 = c
      · rw [if_pos hc, if_pos hc]
        have := hk e
        rw [← hc] at this ⊢
        rw [this, (lsW_eq m q e).2]
        generalize (neighbour m q e.2 e.1).w = w
        simp only [neighbour, lsDx, lsDy]
        ring
      · rw [if_neg hc, if_neg hc]
    rw [a1, a2]
  constructor
  · exact key _ _ (fun e c => (lsCoeff m e c).1) fun e => rfl
  · exact key _ _ (fun e c => (lsCoeff m e c).2) fun e => rfl

/-- The quadratic form of the normal matrix is not negative. -/
lemma ls_form (S : List Neighbour) (α β : ℝ) :
    0 ≤ α * α * nsum S (fun s => s.w * s.dx * s.dx) + 2 * α * β * nsum S (fun s => s.w * s.dx * s.dy) +
      β * β * nsum S (fun s => s.w * s.dy * s.dy) := by
  have h : nsum S (fun s => s.w * (α * s.dx + β * s.dy) ^ 2) =
      α * α * nsum S (fun s => s.w * s.dx * s.dx) + (2 * α * β * nsum S (fun s => s.w * s.dx * s.dy) +
      (β * β * nsum S (fun s => s.w * s.dy * s.dy) + nsum S (fun _ => 0))) := by
    rw [← nsum_lin, ← nsum_lin, ← nsum_lin]
    exact nsum_congr _ _ _ fun s => by ring
  have z : nsum S (fun _ => (0 : ℝ)) = 0 := by simp [nsum]
  rw [z] at h
  have := nsum_nonneg S (fun s => s.w * (α * s.dx + β * s.dy) ^ 2)
    fun s => mul_nonneg s.w_nonneg (sq_nonneg _)
  linarith

lemma ls_error_expand (S : List Neighbour) (a b : ℝ) :
    lsError S a b = nsum S (fun s => s.w * s.dq * s.dq) - 2 * a * nsum S (fun s => s.w * s.dx * s.dq)
      - 2 * b * nsum S (fun s => s.w * s.dy * s.dq) + a * a * nsum S (fun s => s.w * s.dx * s.dx)
      + 2 * a * b * nsum S (fun s => s.w * s.dx * s.dy) + b * b * nsum S (fun s => s.w * s.dy * s.dy) := by
  have h : lsError S a b = (-2 * a) * nsum S (fun s => s.w * s.dx * s.dq) +
      ((-2 * b) * nsum S (fun s => s.w * s.dy * s.dq) + (a * a * nsum S (fun s => s.w * s.dx * s.dx) +
      (2 * a * b * nsum S (fun s => s.w * s.dx * s.dy) + (b * b * nsum S (fun s => s.w * s.dy * s.dy) +
        nsum S (fun s => s.w * s.dq * s.dq))))) := by
    rw [← nsum_lin, ← nsum_lin, ← nsum_lin, ← nsum_lin, ← nsum_lin]
    exact nsum_congr _ _ _ fun s => by unfold Neighbour.w; ring
  rw [h]
  ring

/-- A positive semidefinite 2x2 matrix has a non-negative determinant. -/
lemma psd_det {A B C : ℝ} (h : ∀ α β : ℝ, 0 ≤ α * α * A + 2 * α * β * B + β * β * C) : 0 ≤ A * C - B * B := by
  have hA := h 1 0
  have hC := h 0 1
  have h1 := h 1 1
  have h2 := h 1 (-1)
  have h3 := h (-B) A
  have h4 := h C (-B)
  norm_num at hA hC h1 h2
  by_contra hn
  push Not at hn
  have a0 : A = 0 := by
    by_contra hne
    have : 0 < A := lt_of_le_of_ne hA (Ne.symm hne)
    nlinarith
  have c0 : C = 0 := by
    by_contra hne
    have : 0 < C := lt_of_le_of_ne hC (Ne.symm hne)
    nlinarith
  subst a0 c0
  have : B = 0 := by linarith
  subst this
  norm_num at hn

/-- C50 (least squares): wherever the determinant is not taken to be zero, the gradient of a cell is the one
that explains the differences to its neighbours best, with inverse distances as weights; every other
gradient explains them less well. -/
theorem C50_least_squares (m : LSMesh) (q : ℕ → ℝ) (c : ℕ) (hdet : ¬|lsDet m c| < 1e-15) (a b : ℝ) :
    lsError (neighbours m q c) (lsGradX m q c) (lsGradY m q c) ≤ lsError (neighbours m q c) a b ∧
    (lsError (neighbours m q c) a b = lsError (neighbours m q c) (lsGradX m q c) (lsGradY m q c) →
      a = lsGradX m q c ∧ b = lsGradY m q c) := by
  obtain ⟨hA, hB, hC⟩ := lsM_eq m q c
  obtain ⟨hx, hy⟩ := lsGrad_eq m q c
  have hform := ls_form (neighbours m q c)
  have hne : lsDet m c ≠ 0 := by
    intro h0
    rw [h0] at hdet
    norm_num at hdet
  have hinv : lsInv m c = (lsM11 m c * (1 / lsDet m c), -lsM01 m c * (1 / lsDet m c),
      lsM00 m c * (1 / lsDet m c)) := by
    unfold lsInv
    rw [if_neg hdet]
  rw [hinv] at hx hy
  have hd : lsDet m c = lsM00 m c * lsM11 m c - lsM01 m c * lsM01 m c := rfl
  rw [hA, hB, hC] at hd
  rw [hA, hB, hC] at hx hy
  simp only at hx hy
  rw [ls_error_expand, ls_error_expand]
  generalize nsum (neighbours m q c) (fun s => s.w * s.dx * s.dx) = A at *
  generalize nsum (neighbours m q c) (fun s => s.w * s.dx * s.dy) = B at *
  generalize nsum (neighbours m q c) (fun s => s.w * s.dy * s.dy) = C at *
  generalize nsum (neighbours m q c) (fun s => s.w * s.dx * s.dq) = X at *
  generalize nsum (neighbours m q c) (fun s => s.w * s.dy * s.dq) = Y at *
  generalize nsum (neighbours m q c) (fun s => s.w * s.dq * s.dq) = Q at *
  have n1 : A * lsGradX m q c + B * lsGradY m q c = X := by
    rw [hx, hy]
    have : A * (C * (1 / lsDet m c) * X + -B * (1 / lsDet m c) * Y) +
        B * (-B * (1 / lsDet m c) * X + A * (1 / lsDet m c) * Y) = (A * C - B * B) / lsDet m c * X := by ring
    rw [this, ← hd, div_self hne, one_mul]
  have n2 : B * lsGradX m q c + C * lsGradY m q c = Y := by
    rw [hx, hy]
    have : B * (C * (1 / lsDet m c) * X + -B * (1 / lsDet m c) * Y) +
        C * (-B * (1 / lsDet m c) * X + A * (1 / lsDet m c) * Y) = (A * C - B * B) / lsDet m c * Y := by ring
    rw [this, ← hd, div_self hne, one_mul]
  generalize lsGradX m q c = u at *
  generalize lsGradY m q c = v at *
  have key : (Q - 2 * a * X - 2 * b * Y + a * a * A + 2 * a * b * B + b * b * C) -
      (Q - 2 * u * X - 2 * v * Y + u * u * A + 2 * u * v * B + v * v * C) =
      (a - u) * (a - u) * A + 2 * (a - u) * (b - v) * B + (b - v) * (b - v) * C := by
    rw [← n1, ← n2]
    ring
  have hp := hform (a - u) (b - v)
  refine ⟨by linarith, ?_⟩
  intro heq
  have hz : (a - u) * (a - u) * A + 2 * (a - u) * (b - v) * B + (b - v) * (b - v) * C = 0 := by linarith
  have hdpos : 0 < A * C - B * B := lt_of_le_of_ne (psd_det hform) (by rw [← hd]; exact Ne.symm hne)
  have hA1 := hform 1 0
  have hC1 := hform 0 1
  norm_num at hA1 hC1
  have e1 : A * ((a - u) * (a - u) * A + 2 * (a - u) * (b - v) * B + (b - v) * (b - v) * C) =
      (A * (a - u) + B * (b - v)) ^ 2 + (A * C - B * B) * (b - v) ^ 2 := by ring
  have e2 : C * ((a - u) * (a - u) * A + 2 * (a - u) * (b - v) * B + (b - v) * (b - v) * C) =
      (C * (b - v) + B * (a - u)) ^ 2 + (A * C - B * B) * (a - u) ^ 2 := by ring
  rw [hz, mul_zero] at e1 e2
  have f1 : (b - v) ^ 2 = 0 := by
    have := mul_nonneg hdpos.le (sq_nonneg (b - v))
    have h0 : (A * C - B * B) * (b - v) ^ 2 = 0 := le_antisymm (by linarith only [e1, sq_nonneg (A * (a - u) + B * (b - v))]) this
    exact (mul_eq_zero.mp h0).resolve_left hdpos.ne'
  have f2 : (a - u) ^ 2 = 0 := by
    have := mul_nonneg hdpos.le (sq_nonneg (a - u))
    have h0 : (A * C - B * B) * (a - u) ^ 2 = 0 := le_antisymm (by linarith only [e2, sq_nonneg (C * (b - v) + B * (a - u))]) this
    exact (mul_eq_zero.mp h0).resolve_left hdpos.ne'
  rw [sq_eq_zero_iff] at f1 f2
  exact ⟨by linarith, by linarith⟩

/-- C50 (linear fields, wherever the determinant is not taken to be zero): the gradient is exact. -/
theorem C50_exact_partial (m : LSMesh) (c : ℕ) (a b k : ℝ) (hdet : ¬|lsDet m c| < 1e-15) :
    lsGradX m (fun d => linear a b k (m.x d) (m.y d)) c = a ∧
    lsGradY m (fun d => linear a b k (m.x d) (m.y d)) c = b := by
  set q : ℕ → ℝ := fun d => linear a b k (m.x d) (m.y d) with hq
  have h0 : lsError (neighbours m q c) a b = 0 := by
    unfold lsError neighbours
    induction m.edges with
    | nil => simp
    | cons e es ih =>
      rw [List.flatMap_cons, List.map_append, List.sum_append, ih, add_zero]
      have h : ∀ d, 1 / (neighbour m q c d).dist * ((neighbour m q c d).dq -
          (a * (neighbour m q c d).dx + b * (neighbour m q c d).dy)) ^ 2 = 0 := by
        intro d
        have : (neighbour m q c d).dq - (a * (neighbour m q c d).dx + b * (neighbour m q c d).dy) = 0 := by
          simp only [neighbour, hq, linear]
          ring
        rw [this]
        norm_num
      by_cases h1 : e.1 = c <;> by_cases h2 : e.2 = c <;>
        simp only [h1, h2, if_true, if_false, List.map_append, List.map_cons, List.map_nil,
          List.sum_append, List.sum_cons, List.sum_nil, h] <;> norm_num
  have hnn : 0 ≤ lsError (neighbours m q c) (lsGradX m q c) (lsGradY m q c) := by
    refine nsum_nonneg (neighbours m q c) (fun s => 1 / s.dist * (s.dq - (lsGradX m q c * s.dx +
      lsGradY m q c * s.dy)) ^ 2) ?_
    intro s
    exact mul_nonneg s.w_nonneg (sq_nonneg _)
  obtain ⟨h1, h2⟩ := C50_least_squares m q c hdet a b
  obtain ⟨h3, h4⟩ := h2 (le_antisymm (by rw [h0]; exact hnn) h1)
  exact ⟨h3.symm, h4.symm⟩

example : ¬|lsDet ⟨fun c => if c = 1 then 1 else 0, fun c => if c = 2 then 1 else 0, [(0, 1), (2, 0)]⟩ 0| <
    1e-15 := by
  norm_num [lsDet, lsM00, lsM01, lsM11, lsAccumulate, lsDx, lsDy, lsW, bump]

lemma nsum_perm {S T : List Neighbour} (h : S.Perm T) (φ : Neighbour → ℝ) : nsum S φ = nsum T φ :=
  (h.map φ).sum_eq

/-- Two neighbours in different directions make the determinant positive, by the product of their distances
and the square of the sine of the angle between them. -/
lemma lsDet_ge (m : LSMesh) (q : ℕ → ℝ) (c : ℕ) (s t : Neighbour) (S : List Neighbour)
    (h : (neighbours m q c).Perm (s :: t :: S)) :
    s.w * t.w * (s.dx * t.dy - s.dy * t.dx) ^ 2 ≤ lsDet m c := by
  obtain ⟨hA, hB, hC⟩ := lsM_eq m q c
  unfold lsDet
  rw [hA, hB, hC, nsum_perm h, nsum_perm h, nsum_perm h]
  have hc : ∀ φ : Neighbour → ℝ, nsum (s :: t :: S) φ = φ s + (φ t + nsum S φ) := by
    intro φ
    simp [nsum]
  rw [hc, hc, hc]
  have hf := ls_form S
  generalize nsum S (fun s => s.w * s.dx * s.dx) = A at *
  generalize nsum S (fun s => s.w * s.dx * s.dy) = B at *
  generalize nsum S (fun s => s.w * s.dy * s.dy) = C at *
  have h1 := mul_nonneg s.w_nonneg (hf s.dy (-s.dx))
  have h2 := mul_nonneg t.w_nonneg (hf t.dy (-t.dx))
  have h3 := psd_det hf
  nlinarith

/-- C50 (linear fields, geometric form): the gradient of a linear field is exact in every cell that has two
neighbours whose distances times the square of the sine of the angle between them is at least 1e-15
(`s.w = 1 / s.dist`, and the bracket is the cross product of the offsets). -/
theorem C50_spanning_partial (m : LSMesh) (c : ℕ) (a b k : ℝ) (s t : Neighbour) (S : List Neighbour)
    (h : (neighbours m (fun d => linear a b k (m.x d) (m.y d)) c).Perm (s :: t :: S))
    (hst : 1e-15 ≤ 1 / s.dist * (1 / t.dist) * (s.dx * t.dy - s.dy * t.dx) ^ 2) :
    lsGradX m (fun d => linear a b k (m.x d) (m.y d)) c = a ∧
    lsGradY m (fun d => linear a b k (m.x d) (m.y d)) c = b := by
  apply C50_exact_partial
  have := lsDet_ge m _ c s t S h
  have h' : (1e-15 : ℝ) ≤ lsDet m c := le_trans hst this
  rw [not_lt]
  exact le_trans h' (le_abs_self _)

/-- Three unit squares in an L: cell 0 in the corner, cell 1 to the right, cell 2 above. The edge to cell 2
is oriented towards cell 0. -/
def exCorner : LSMesh := ⟨fun c => if c = 1 then 1 else 0, fun c => if c = 2 then 1 else 0, [(0, 1), (2, 0)]⟩

example : lsGradX exCorner (fun d => linear 2 (-3) 7 (exCorner.x d) (exCorner.y d)) 0 = 2 ∧
    lsGradY exCorner (fun d => linear 2 (-3) 7 (exCorner.x d) (exCorner.y d)) 0 = -3 := by
  refine C50_spanning_partial exCorner 0 2 (-3) 7 ⟨1, 0, 2⟩ ⟨0, 1, -3⟩ [] ?_ ?_
  · have : neighbours exCorner (fun d => linear 2 (-3) 7 (exCorner.x d) (exCorner.y d)) 0 =
        [⟨1, 0, 2⟩, ⟨0, 1, -3⟩] := by
      norm_num [neighbours, neighbour, exCorner, linear]
    rw [this]
  · norm_num [Neighbour.dist]

/-- C50 (constants): a constant field has zero gradient in every cell, without any hypothesis on the mesh. -/
theorem C50_constant (m : LSMesh) (c : ℕ) (k : ℝ) :
    lsGradX m (fun _ => k) c = 0 ∧ lsGradY m (fun _ => k) c = 0 := by
  have h : ∀ φ : Neighbour → ℝ, (∀ s, s.dq = 0 → φ s = 0) → nsum (neighbours m (fun _ => k) c) φ = 0 := by
    intro φ hφ
    rw [nsum_neighbours]
    have : ∀ d, φ (neighbour m (fun _ => k) c d) = 0 := fun d => hφ _ (by simp [neighbour])
    simp only [this]
    induction m.edges with
    | nil => simp
    | cons e es ih => simp
  obtain ⟨hx, hy⟩ := lsGrad_eq m (fun _ => k) c
  rw [h (fun s => s.w * s.dx * s.dq) (fun s hs => by rw [hs, mul_zero]),
    h (fun s => s.w * s.dy * s.dq) (fun s hs => by rw [hs, mul_zero])] at hx hy
  rw [hx, hy]
  constructor <;> ring

example : lsGradX exCorner (fun _ => 4) 0 = 0 := (C50_constant exCorner 0 4).1

/-- C50 (degenerate cells): where the determinant is taken to be zero, the gradient is zero. -/
theorem C50_degenerate (m : LSMesh) (q : ℕ → ℝ) (c : ℕ) (hdet : |lsDet m c| < 1e-15) :
    lsGradX m q c = 0 ∧ lsGradY m q c = 0 := by
  obtain ⟨hx, hy⟩ := lsGrad_eq m q c
  have hinv : lsInv m c = (0, 0, 0) := by
    unfold lsInv
    rw [if_pos hdet]
  rw [hinv] at hx hy
  rw [hx, hy]
  constructor <;> simp

example : |lsDet exTwoSquares 0| < 1e-15 := by
  norm_num [lsDet, lsM00, lsM01, lsM11, lsAccumulate, lsDx, lsDy, bump, exTwoSquares]

/-- The three squares of `exCorner` with sides of 1e-8. -/
noncomputable def exSmall : LSMesh :=
  ⟨fun c => if c = 1 then 1e-8 else 0, fun c => if c = 2 then 1e-8 else 0, [(0, 1), (2, 0)]⟩

/-- C50 does not hold for every cell whose neighbours span the plane: the test for a degenerate cell compares
the determinant, which has the unit of a length squared, with 1e-15. In a mesh of squares with sides of 1e-8
(in the unit of the mesh coordinates) all gradients are zero. -/
theorem C50_spanning_violated :
    neighbours exSmall (fun d => linear 1 0 0 (exSmall.x d) (exSmall.y d)) 0 =
      [⟨1e-8, 0, 1e-8⟩, ⟨0, 1e-8, 0⟩] ∧
    lsGradX exSmall (fun d => linear 1 0 0 (exSmall.x d) (exSmall.y d)) 0 = 0 := by
  refine ⟨by norm_num [neighbours, neighbour, exSmall, linear], ?_⟩
  refine (C50_degenerate exSmall _ 0 ?_).1
  have hw : ∀ e ∈ exSmall.edges, lsW exSmall e = 1e8 := by
    intro e he
    have hs : √(1e-8 * 1e-8 : ℝ) = 1e-8 := Real.sqrt_mul_self (by norm_num)
    have he' : e = (0, 1) ∨ e = (2, 0) := by simpa [exSmall] using he
    rcases he' with rfl | rfl
    · have : lsDx exSmall (0, 1) * lsDx exSmall (0, 1) + lsDy exSmall (0, 1) * lsDy exSmall (0, 1) =
          1e-8 * 1e-8 := by norm_num [lsDx, lsDy, exSmall]
      unfold lsW
      rw [this, hs]
      norm_num
    · have : lsDx exSmall (2, 0) * lsDx exSmall (2, 0) + lsDy exSmall (2, 0) * lsDy exSmall (2, 0) =
          1e-8 * 1e-8 := by norm_num [lsDx, lsDy, exSmall]
      unfold lsW
      rw [this, hs]
      norm_num
  have h1 := hw (0, 1) (by simp [exSmall])
  have h2 := hw (2, 0) (by simp [exSmall])
  have hm : ∀ v, lsAccumulate exSmall v 0 = v (0, 1) + v (2, 0) := by
    intro v
    simp [lsAccumulate, exSmall, bump]
  unfold lsDet lsM00 lsM01 lsM11
  rw [hm, hm, hm, h1, h2]
  norm_num [lsDx, lsDy, exSmall, abs_of_pos]

/-- A uniform state is reconstructed as itself at every edge: together with C50, second order adds nothing to
a uniform state, whichever limiter is chosen and however the mesh looks. -/
theorem C49_uniform (l : Limiter) (m : LSMesh) (q : CellField) (e : MEdge) (s : Cons) (hs : 0 ≤ s.h)
    (hh : ∀ c, q.h c = s.h) (hu : ∀ c, q.hu c = s.hu) (hv : ∀ c, q.hv c = s.hv) :
    (reconstructEdge l m q (lsGradients m q) e).qL = s ∧ (reconstructEdge l m q (lsGradients m q) e).qR = s := by
  have key : ∀ (p : ℕ → ℝ) (k : ℝ), (∀ c, p c = k) → faceOf l m p (lsGradX m p) (lsGradY m p) e = (k, k) := by
    intro p k hp
    have hpk : p = fun _ => k := funext hp
    subst hpk
    simp only [faceOf, faceValues, extrapolation, (C50_constant m _ k).1, (C50_constant m _ k).2]
    cases l <;> simp [limitSlope, minmod, vanLeer]
  have k1 := key q.h s.h hh
  have k2 := key q.hu s.hu hu
  have k3 := key q.hv s.hv hv
  simp only [reconstructEdge, lsGradients, k1, k2, k3, max_eq_right hs, and_self]

example : (reconstructEdge .none exTwoSquares ⟨fun _ => 2, fun _ => 1, fun _ => -1⟩
    (lsGradients exTwoSquares ⟨fun _ => 2, fun _ => 1, fun _ => -1⟩) exMEdge).qL = ⟨2, 1, -1⟩ :=
  (C49_uniform .none exTwoSquares ⟨fun _ => 2, fun _ => 1, fun _ => -1⟩ exMEdge ⟨2, 1, -1⟩ (by norm_num)
    (fun _ => rfl) (fun _ => rfl) (fun _ => rfl)).1

/-! ### C68: the limiter that is used -/

/-- What the user asks for: `-van_leer` wins over everything, then either form of `no_limiter`, and otherwise
`numerics.limiter` decides. -/
def requestedLimiter (s : LimiterSettings) : Limiter :=
  match s.cliVanLeer, s.yamlNoLimiter || s.cliNoLimiter with
  | true, _ => .vanLeer
  | false, true => .none
  | false, false => s.yamlLimiter

/-- C68 (PETSc): the limiter that was asked for is used. -/
theorem C68_petsc (s : LimiterSettings) : limiterPetsc s = requestedLimiter s := by
  obtain ⟨l, a, b, c⟩ := s
  cases a <;> cases b <;> cases c <;> rfl

example : limiterPetsc ⟨.vanLeer, false, false, false⟩ = .vanLeer := by rw [C68_petsc]; rfl

/-- C68 (CEED): what was asked for is used if `-van_leer` is not given and `numerics.limiter` is minmod (the
default). -/
theorem C68_ceed_partial (s : LimiterSettings) (h1 : s.cliVanLeer = false) (h2 : s.yamlLimiter = .minmod) :
    limiterCeed s = requestedLimiter s := by
  obtain ⟨l, a, b, c⟩ := s
  simp only at h1 h2
  subst h1 h2
  cases a <;> cases b <;> rfl

example : limiterCeed ⟨.minmod, true, false, false⟩ = .none := by rw [C68_ceed_partial _ rfl rfl]; rfl

/-- C68 does not hold for the CEED backend: `numerics.limiter` is not read there. A configuration with
`limiter: none` runs with minmod, and so does one with `limiter: van_leer`, without any message. -/
theorem C68_ceed_violated :
    (requestedLimiter ⟨.none, false, false, false⟩ = .none ∧ limiterCeed ⟨.none, false, false, false⟩ = .minmod) ∧
    (requestedLimiter ⟨.vanLeer, false, false, false⟩ = .vanLeer ∧
      limiterCeed ⟨.vanLeer, false, false, false⟩ = .minmod) := by decide

end RDy
