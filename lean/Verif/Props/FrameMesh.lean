import Verif.Props.Frame
import Verif.Props.Muscl

/-!
C76, geometry and second-order reconstruction: normals and bed slopes computed from the coordinates turn with
the axes, and so do the least-squares gradients and the values they give at the edges, unless a limiter is
used.
-/

namespace RDy

/-! ### Specification -/

/-- a point in other axes, with another origin `t` -/
def Ortho.pt (O : Ortho) (t : P2) (a : P2) : P2 := ⟨O.x a.x a.y + t.x, O.y a.x a.y + t.y⟩

/-- a point in other axes, with another origin `t` and another zero `k` of the elevations -/
def Ortho.pt3 (O : Ortho) (t : P2) (k : ℝ) (a : P3) : P3 :=
  ⟨O.x a.x a.y + t.x, O.y a.x a.y + t.y, a.z + k⟩

/-- a vector in other axes -/
def Ortho.vec2 (O : Ortho) (n : ℝ × ℝ) : ℝ × ℝ := (O.x n.1 n.2, O.y n.1 n.2)

/-! ### Normals -/

theorem Ortho.det_sq (O : Ortho) : O.det * O.det = 1 := by
  have : O.det * O.det = (O.p * O.p + O.r * O.r) * (O.q * O.q + O.s * O.s) -
      (O.p * O.q + O.r * O.s) * (O.p * O.q + O.r * O.s) := by unfold Ortho.det; ring
  rw [this, O.col1, O.col2, O.cross]; norm_num

theorem Ortho.det_cases (O : Ortho) : O.det = 1 ∨ O.det = -1 := by
  have := O.det_sq
  have h : (O.det - 1) * (O.det + 1) = 0 := by linarith [this]
  rcases mul_eq_zero.mp h with h | h
  · left; linarith
  · right; linarith

theorem edgeDot_frame (O : Ortho) (t v1 v2 l : P2) (r : Option P2) :
    edgeDot (O.pt t v1) (O.pt t v2) (O.pt t l) (r.map (O.pt t)) = O.det * edgeDot v1 v2 l r := by
  cases r with
  | none => simp only [Option.map_none, edgeDot, l2r, Ortho.pt, Ortho.x, Ortho.y, Ortho.det]; ring
  | some r => simp only [Option.map_some, edgeDot, l2r, Ortho.pt, Ortho.x, Ortho.y, Ortho.det]; ring

theorem edgeLen_frame (O : Ortho) (t a b : P2) : edgeLen (O.pt t a) (O.pt t b) = edgeLen a b := by
  unfold edgeLen
  congr 1
  have := O.dot (b.x - a.x) (b.y - a.y) (b.x - a.x) (b.y - a.y)
  simp only [Ortho.pt]
  have e1 : O.x b.x b.y + t.x - (O.x a.x a.y + t.x) = O.x (b.x - a.x) (b.y - a.y) := by
    unfold Ortho.x; ring
  have e2 : O.y b.x b.y + t.y - (O.y a.x a.y + t.y) = O.y (b.x - a.x) (b.y - a.y) := by
    unfold Ortho.y; ring
  rw [e1, e2, pow_two, pow_two, this]
  ring

theorem edgeLen_comm (a b : P2) : edgeLen a b = edgeLen b a := by
  unfold edgeLen
  congr 1
  ring

/-- C76 (normals). From coordinates in other axes, with any origin, the code computes the same edge length
and the same normal in the other axes. (The cell must not lie on the line of its edge.) -/
theorem C76_normal (O : Ortho) (t v1 v2 l : P2) (r : Option P2) (h : edgeDot v1 v2 l r ≠ 0) :
    edgeLen (O.pt t v1) (O.pt t v2) = edgeLen v1 v2 ∧
      edgeNormal (O.pt t v1) (O.pt t v2) (O.pt t l) (r.map (O.pt t)) =
        (edgeNormal v1 v2 l r).map O.vec2 := by
  refine ⟨edgeLen_frame O t v1 v2, ?_⟩
  unfold edgeNormal orientedVertices
  rw [edgeDot_frame]
  rcases O.det_cases with hd | hd
  · have hs := O.det_s
    have hr := O.det_r
    rw [hd, mul_one] at hs hr
    rw [hd, one_mul]
    by_cases hneg : edgeDot v1 v2 l r < 0
    · rw [if_pos hneg, if_pos hneg]
      simp only [edgeLen_frame]
      by_cases hl : edgeLen v2 v1 = 0
      · rw [if_pos hl, if_pos hl]; rfl
      · rw [if_neg hl, if_neg hl]
        simp only [Option.map_some, Option.some.injEq, Ortho.vec2, Prod.mk.injEq, Ortho.pt, Ortho.x,
          Ortho.y, hs, hr]
        constructor <;> ring
    · rw [if_neg hneg, if_neg hneg]
      simp only [edgeLen_frame]
      by_cases hl : edgeLen v1 v2 = 0
      · rw [if_pos hl, if_pos hl]; rfl
      · rw [if_neg hl, if_neg hl]
        simp only [Option.map_some, Option.some.injEq, Ortho.vec2, Prod.mk.injEq, Ortho.pt, Ortho.x,
          Ortho.y, hs, hr]
        constructor <;> ring
  · have hs := O.det_s
    have hr := O.det_r
    rw [hd] at hs hr
    have hs' : O.s = -O.p := by linarith
    have hr' : O.r = O.q := by linarith
    rw [hd]
    by_cases hneg : edgeDot v1 v2 l r < 0
    · rw [if_pos hneg, if_neg (by linarith)]
      simp only [edgeLen_frame, edgeLen_comm v1 v2]
      by_cases hl : edgeLen v2 v1 = 0
      · rw [if_pos hl, if_pos hl]; rfl
      · rw [if_neg hl, if_neg hl]
        simp only [Option.map_some, Option.some.injEq, Ortho.vec2, Prod.mk.injEq, Ortho.pt, Ortho.x,
          Ortho.y, hs', hr']
        constructor <;> ring
    · have hpos : 0 < edgeDot v1 v2 l r := lt_of_le_of_ne (not_lt.mp hneg) (Ne.symm h)
      rw [if_neg hneg, if_pos (by linarith)]
      simp only [edgeLen_frame, edgeLen_comm v2 v1]
      by_cases hl : edgeLen v1 v2 = 0
      · rw [if_pos hl, if_pos hl]; rfl
      · rw [if_neg hl, if_neg hl]
        simp only [Option.map_some, Option.some.injEq, Ortho.vec2, Prod.mk.injEq, Ortho.pt, Ortho.x,
          Ortho.y, hs', hr']
        constructor <;> ring

/-- a vertical edge between two cells, with exchanged axes -/
example : edgeNormal ⟨0, 1⟩ ⟨1, 1⟩ ⟨0, 0⟩ (some ⟨0, 2⟩) =
    (edgeNormal ⟨1, 0⟩ ⟨1, 1⟩ ⟨0, 0⟩ (some ⟨2, 0⟩)).map fun n => (n.2, n.1) := by
  have := (C76_normal swapAxes ⟨0, 0⟩ ⟨1, 0⟩ ⟨1, 1⟩ ⟨0, 0⟩ (some ⟨2, 0⟩) (by norm_num [edgeDot, l2r])).2
  have hv : swapAxes.vec2 = fun n => (n.2, n.1) := by
    funext n; simp [swapAxes, Ortho.vec2, Ortho.x, Ortho.y]
  rw [hv] at this
  simpa [swapAxes, Ortho.pt, Ortho.x, Ortho.y] using this

/-! ### Slopes -/

theorem slopes3_swap (a b c : P3) : slopes3 a c b = slopes3 a b c := by
  unfold slopes3
  have e1 : (b.y - a.y) * (c.x - a.x) - (c.y - a.y) * (b.x - a.x) =
      -((c.y - a.y) * (b.x - a.x) - (b.y - a.y) * (c.x - a.x)) := by ring
  have e2 : (b.x - a.x) * (c.y - a.y) - (c.x - a.x) * (b.y - a.y) =
      -((c.x - a.x) * (b.y - a.y) - (b.x - a.x) * (c.y - a.y)) := by ring
  have e3 : (b.y - a.y) * (c.z - a.z) - (c.y - a.y) * (b.z - a.z) =
      -((c.y - a.y) * (b.z - a.z) - (b.y - a.y) * (c.z - a.z)) := by ring
  have e4 : (b.x - a.x) * (c.z - a.z) - (c.x - a.x) * (b.z - a.z) =
      -((c.x - a.x) * (b.z - a.z) - (b.x - a.x) * (c.z - a.z)) := by ring
  rw [e1, e2, e3, e4, neg_div_neg_eq, neg_div_neg_eq]
  simp only [neg_eq_zero]

theorem triSlopes_eq (a b c : P3) : triSlopes a b c = slopes3 a b c := by
  unfold triSlopes
  by_cases h : isCCW a b c
  · rw [if_pos h]
  · rw [if_neg h, slopes3_swap]

theorem slopes3_frame (O : Ortho) (t : P2) (k : ℝ) (a b c : P3) :
    slopes3 (O.pt3 t k a) (O.pt3 t k b) (O.pt3 t k c) = (slopes3 a b c).map O.vec2 := by
  unfold slopes3
  have hD1 : ((O.pt3 t k c).y - (O.pt3 t k a).y) * ((O.pt3 t k b).x - (O.pt3 t k a).x) -
      ((O.pt3 t k b).y - (O.pt3 t k a).y) * ((O.pt3 t k c).x - (O.pt3 t k a).x) =
      O.det * ((c.y - a.y) * (b.x - a.x) - (b.y - a.y) * (c.x - a.x)) := by
    simp only [Ortho.pt3, Ortho.x, Ortho.y, Ortho.det]; ring
  have hD2 : ((O.pt3 t k c).x - (O.pt3 t k a).x) * ((O.pt3 t k b).y - (O.pt3 t k a).y) -
      ((O.pt3 t k b).x - (O.pt3 t k a).x) * ((O.pt3 t k c).y - (O.pt3 t k a).y) =
      O.det * ((c.x - a.x) * (b.y - a.y) - (b.x - a.x) * (c.y - a.y)) := by
    simp only [Ortho.pt3, Ortho.x, Ortho.y, Ortho.det]; ring
  have hd0 : O.det ≠ 0 := by rcases O.det_cases with h | h <;> rw [h] <;> norm_num
  rw [hD1, hD2]
  have hneg : (c.x - a.x) * (b.y - a.y) - (b.x - a.x) * (c.y - a.y) =
      -((c.y - a.y) * (b.x - a.x) - (b.y - a.y) * (c.x - a.x)) := by ring
  rw [hneg]
  by_cases hD : (c.y - a.y) * (b.x - a.x) - (b.y - a.y) * (c.x - a.x) = 0
  · rw [hD, mul_zero, if_pos rfl, if_pos rfl]; rfl
  · rw [if_neg hD, if_neg (mul_ne_zero hd0 hD), if_neg (neg_ne_zero.mpr hD),
      if_neg (mul_ne_zero hd0 (neg_ne_zero.mpr hD))]
    simp only [Option.map_some, Option.some.injEq, Ortho.vec2, Prod.mk.injEq]
    generalize hDD : (c.y - a.y) * (b.x - a.x) - (b.y - a.y) * (c.x - a.x) = D at *
    have hsq := O.det_sq
    have hs := O.det_s
    have hr := O.det_r
    have hp := O.det_p
    have hq := O.det_q
    constructor
    · rw [div_eq_iff (mul_ne_zero hd0 hD)]
      unfold Ortho.x Ortho.pt3
      simp only [Ortho.y]
      field_simp
      rw [← hs]
      have hq' : O.q = -(O.r * O.det) := by linarith
      rw [hq']
      linear_combination (-(O.s * ((c.y - a.y) * (b.z - a.z) - (b.y - a.y) * (c.z - a.z)) +
        O.r * ((c.x - a.x) * (b.z - a.z) - (b.x - a.x) * (c.z - a.z)))) * hsq
    · rw [div_eq_iff (mul_ne_zero hd0 (neg_ne_zero.mpr hD))]
      unfold Ortho.y Ortho.pt3
      simp only [Ortho.x]
      field_simp
      have hr' : O.r = -(O.q * O.det) := by linarith
      rw [← hp, hr']
      linear_combination (-(O.q * ((c.y - a.y) * (b.z - a.z) - (b.y - a.y) * (c.z - a.z)) +
        O.p * ((c.x - a.x) * (b.z - a.z) - (b.x - a.x) * (c.z - a.z)))) * hsq

theorem triArea_frame (O : Ortho) (t : P2) (k : ℝ) (a b c : P3) :
    triArea (O.pt3 t k a) (O.pt3 t k b) (O.pt3 t k c) = triArea a b c := by
  unfold triArea
  have : ((O.pt3 t k b).x - (O.pt3 t k a).x) * ((O.pt3 t k c).y - (O.pt3 t k a).y) -
      ((O.pt3 t k b).y - (O.pt3 t k a).y) * ((O.pt3 t k c).x - (O.pt3 t k a).x) =
      O.det * ((b.x - a.x) * (c.y - a.y) - (b.y - a.y) * (c.x - a.x)) := by
    simp only [Ortho.pt3, Ortho.x, Ortho.y, Ortho.det]; ring
  rw [this, abs_mul]
  rcases O.det_cases with h | h <;> rw [h] <;> simp

theorem quadAccum_frame (O : Ortho) (t : P2) (k : ℝ) (c : P3) (es : List (P3 × P3)) :
    quadAccum (O.pt3 t k c) (es.map fun e => (O.pt3 t k e.1, O.pt3 t k e.2)) =
      (quadAccum c es).map fun s => (O.x s.1 s.2.1, O.y s.1 s.2.1, s.2.2) := by
  induction es with
  | nil => simp [quadAccum, O.x_zero, O.y_zero]
  | cons e es ih =>
    simp only [List.map_cons, quadAccum]
    rw [ih, triSlopes_eq, triSlopes_eq, slopes3_frame, triArea_frame]
    cases slopes3 e.1 e.2 c with
    | none => rfl
    | some s =>
      cases quadAccum c es with
      | none => rfl
      | some S =>
        simp only [Option.map_some, Ortho.vec2, Option.some.injEq, Prod.mk.injEq, and_true, Ortho.x,
          Ortho.y]
        constructor <;> ring

/-- C76 (slopes). From coordinates in other axes, with any origin and any zero of the elevations, the code
computes the same bed slopes in the other axes, for triangles and quadrilaterals. -/
theorem C76_slopes (O : Ortho) (t : P2) (k : ℝ) (a b c d e : P3) :
    triSlopes (O.pt3 t k a) (O.pt3 t k b) (O.pt3 t k c) = (triSlopes a b c).map O.vec2 ∧
      quadSlopes (O.pt3 t k a) (O.pt3 t k b) (O.pt3 t k c) (O.pt3 t k d) (O.pt3 t k e) =
        (quadSlopes a b c d e).map O.vec2 := by
  constructor
  · rw [triSlopes_eq, triSlopes_eq, slopes3_frame]
  · unfold quadSlopes
    have h := quadAccum_frame O t k e [(a, b), (b, c), (c, d), (d, a)]
    simp only [List.map_cons, List.map_nil] at h
    rw [h]
    cases quadAccum e [(a, b), (b, c), (c, d), (d, a)] with
    | none => rfl
    | some S =>
      simp only [Option.map_some]
      by_cases hA : S.2.2 = 0
      · rw [if_pos hA, if_pos hA]; rfl
      · rw [if_neg hA, if_neg hA]
        simp only [Option.map_some, Ortho.vec2, O.x_div, O.y_div]

example : triSlopes ⟨0, 0, 5⟩ ⟨0, 1, 8⟩ ⟨1, 0, 7⟩ = some (2, 3) := by
  have := (C76_slopes swapAxes ⟨0, 0⟩ 5 ⟨0, 0, 0⟩ ⟨1, 0, 3⟩ ⟨0, 1, 2⟩ ⟨0, 0, 0⟩ ⟨0, 0, 0⟩).1
  rw [triSlopes_eq, triSlopes_eq] at this
  rw [triSlopes_eq]
  norm_num [swapAxes, Ortho.pt3, Ortho.x, Ortho.y, Ortho.vec2, slopes3] at this ⊢

/-! ### Second-order reconstruction -/

/-- centroids in other axes, with another origin -/
def Ortho.ls (O : Ortho) (t : P2) (m : LSMesh) : LSMesh :=
  ⟨fun c => O.x (m.x c) (m.y c) + t.x, fun c => O.y (m.x c) (m.y c) + t.y, m.edges⟩

/-- a solution in other axes -/
def Ortho.field (O : Ortho) (q : CellField) : CellField :=
  ⟨q.h, fun c => O.x (q.hu c) (q.hv c), fun c => O.y (q.hu c) (q.hv c)⟩

/-- gradients (derivatives in x and in y direction) in other axes -/
def Ortho.grad (O : Ortho) (g : CellField × CellField) : CellField × CellField :=
  (⟨fun c => O.x (g.1.h c) (g.2.h c),
    fun c => O.x (O.x (g.1.hu c) (g.1.hv c)) (O.x (g.2.hu c) (g.2.hv c)),
    fun c => O.x (O.y (g.1.hu c) (g.1.hv c)) (O.y (g.2.hu c) (g.2.hv c))⟩,
   ⟨fun c => O.y (g.1.h c) (g.2.h c),
    fun c => O.y (O.x (g.1.hu c) (g.1.hv c)) (O.x (g.2.hu c) (g.2.hv c)),
    fun c => O.y (O.y (g.1.hu c) (g.1.hv c)) (O.y (g.2.hu c) (g.2.hv c))⟩)

/-- an edge, with its end points and its normal, in other axes -/
def Ortho.medge (O : Ortho) (t : P2) (e : MEdge) : MEdge :=
  { e with
    x0 := O.x e.x0 e.y0 + t.x
    y0 := O.y e.x0 e.y0 + t.y
    x1 := O.x e.x1 e.y1 + t.x
    y1 := O.y e.x1 e.y1 + t.y
    sn := O.y e.cn e.sn
    cn := O.x e.cn e.sn }

/-- an edge with reconstructed states, in other axes -/
def Ortho.redge (O : Ortho) (e : REdge) : REdge :=
  { e with sn := O.y e.cn e.sn, cn := O.x e.cn e.sn, qL := O.cons e.qL, qR := O.cons e.qR }

/-- a neighbour in other axes -/
def Ortho.nb (O : Ortho) (s : Neighbour) : Neighbour := ⟨O.x s.dx s.dy, O.y s.dx s.dy, s.dq⟩

theorem neighbours_frame (O : Ortho) (t : P2) (m : LSMesh) (q : ℕ → ℝ) (c : ℕ) :
    neighbours (O.ls t m) q c = (neighbours m q c).map O.nb := by
  unfold neighbours
  rw [List.map_flatMap]
  have hn : ∀ d, neighbour (O.ls t m) q c d = O.nb (neighbour m q c d) := by
    intro d
    simp only [neighbour, Ortho.ls, Ortho.nb, Neighbour.mk.injEq, and_true, Ortho.x, Ortho.y]
    constructor <;> ring
  have he : (O.ls t m).edges = m.edges := rfl
  rw [he]
  congr 1
  funext e
  rw [List.map_append]
  congr 1
  · by_cases h : e.1 = c
    · rw [if_pos h, if_pos h, List.map_cons, List.map_nil, hn]
    · rw [if_neg h, if_neg h, List.map_nil]
  · by_cases h : e.2 = c
    · rw [if_pos h, if_pos h, List.map_cons, List.map_nil, hn]
    · rw [if_neg h, if_neg h, List.map_nil]

theorem nb_w (O : Ortho) (s : Neighbour) : (O.nb s).w = s.w := by
  unfold Neighbour.w Neighbour.dist Ortho.nb
  simp only [O.dot]

theorem nsum_map (S : List Neighbour) (f : Neighbour → Neighbour) (φ : Neighbour → ℝ) :
    nsum (S.map f) φ = nsum S fun s => φ (f s) := by
  unfold nsum
  rw [List.map_map]
  rfl

/-- sums of three terms -/
theorem nsum_lin3 (S : List Neighbour) (φ ψ χ : Neighbour → ℝ) (a b c : ℝ) :
    nsum S (fun s => a * φ s + b * ψ s + c * χ s) = a * nsum S φ + b * nsum S ψ + c * nsum S χ := by
  induction S with
  | nil => simp [nsum]
  | cons s S ih =>
    simp only [nsum, List.map_cons, List.sum_cons] at ih ⊢
    rw [ih]
    ring

theorem lsM_frame (O : Ortho) (t : P2) (m : LSMesh) (c : ℕ) :
    lsM00 (O.ls t m) c = O.p * O.p * lsM00 m c + 2 * O.p * O.q * lsM01 m c + O.q * O.q * lsM11 m c ∧
    lsM01 (O.ls t m) c = O.p * O.r * lsM00 m c + (O.p * O.s + O.q * O.r) * lsM01 m c +
      O.q * O.s * lsM11 m c ∧
    lsM11 (O.ls t m) c = O.r * O.r * lsM00 m c + 2 * O.r * O.s * lsM01 m c + O.s * O.s * lsM11 m c := by
  obtain ⟨h1, h2, h3⟩ := lsM_eq (O.ls t m) (fun _ => 0) c
  obtain ⟨k1, k2, k3⟩ := lsM_eq m (fun _ => 0) c
  rw [h1, h2, h3, k1, k2, k3, neighbours_frame, nsum_map, nsum_map, nsum_map]
  simp only [nb_w]
  refine ⟨?_, ?_, ?_⟩
  all_goals
    rw [← nsum_lin3]
    apply nsum_congr
    intro s
    simp only [Ortho.nb, Ortho.x, Ortho.y]
    ring

theorem lsDet_frame (O : Ortho) (t : P2) (m : LSMesh) (c : ℕ) : lsDet (O.ls t m) c = lsDet m c := by
  obtain ⟨h1, h2, h3⟩ := lsM_frame O t m c
  unfold lsDet
  rw [h1, h2, h3]
  have := O.det_sq
  unfold Ortho.det at this
  linear_combination (lsM00 m c * lsM11 m c - lsM01 m c * lsM01 m c) * this

/-- C76 (gradients). The least-squares gradient of a scalar, computed in other axes, is the gradient in the
other axes. -/
theorem C76_gradient (O : Ortho) (t : P2) (m : LSMesh) (q : ℕ → ℝ) (c : ℕ) :
    lsGradX (O.ls t m) q c = O.x (lsGradX m q c) (lsGradY m q c) ∧
      lsGradY (O.ls t m) q c = O.y (lsGradX m q c) (lsGradY m q c) := by
  obtain ⟨g1, g2⟩ := lsGrad_eq m q c
  obtain ⟨g3, g4⟩ := lsGrad_eq (O.ls t m) q c
  obtain ⟨h1, h2, h3⟩ := lsM_frame O t m c
  have v1 : nsum (neighbours (O.ls t m) q c) (fun s => s.w * s.dx * s.dq) =
      O.x (nsum (neighbours m q c) fun s => s.w * s.dx * s.dq)
        (nsum (neighbours m q c) fun s => s.w * s.dy * s.dq) := by
    have := nsum_lin3 (neighbours m q c) (fun s => s.w * s.dx * s.dq) (fun s => s.w * s.dy * s.dq)
      (fun _ => 0) O.p O.q 0
    simp only [zero_mul, add_zero] at this
    unfold Ortho.x
    rw [← this, neighbours_frame, nsum_map]
    simp only [nb_w]
    apply nsum_congr
    intro s
    simp only [Ortho.nb, Ortho.x]
    ring
  have v2 : nsum (neighbours (O.ls t m) q c) (fun s => s.w * s.dy * s.dq) =
      O.y (nsum (neighbours m q c) fun s => s.w * s.dx * s.dq)
        (nsum (neighbours m q c) fun s => s.w * s.dy * s.dq) := by
    have := nsum_lin3 (neighbours m q c) (fun s => s.w * s.dx * s.dq) (fun s => s.w * s.dy * s.dq)
      (fun _ => 0) O.r O.s 0
    simp only [zero_mul, add_zero] at this
    unfold Ortho.y
    rw [← this, neighbours_frame, nsum_map]
    simp only [nb_w]
    apply nsum_congr
    intro s
    simp only [Ortho.nb, Ortho.y]
    ring
  rw [g3, g4, g1, g2, v1, v2]
  generalize nsum (neighbours m q c) (fun s => s.w * s.dx * s.dq) = a
  generalize nsum (neighbours m q c) (fun s => s.w * s.dy * s.dq) = b
  unfold lsInv
  rw [lsDet_frame]
  by_cases hd : |lsDet m c| < 1e-15
  · rw [if_pos hd, if_pos hd]
    simp [O.x_zero, O.y_zero]
  · rw [if_neg hd, if_neg hd]
    rw [h1, h2, h3]
    generalize lsM00 m c = A
    generalize lsM01 m c = B
    generalize lsM11 m c = C
    generalize 1 / lsDet m c = D
    have e1 := O.det_s
    have e2 := O.det_r
    have e3 := O.det_p
    have e4 := O.det_q
    unfold Ortho.det at e1 e2 e3 e4
    simp only [Ortho.x, Ortho.y]
    constructor
    · linear_combination (-A * D * b + B * D * a) * e2 + (C * D * a - B * D * b) * e1
    · linear_combination (A * D * b - B * D * a) * e3 + (-C * D * a + B * D * b) * e4

/-- The gradient of a momentum component in other axes. -/
theorem gradient_lin (m : LSMesh) (a b : ℝ) (u v : ℕ → ℝ) (c : ℕ) :
    lsGradX m (fun d => a * u d + b * v d) c = a * lsGradX m u c + b * lsGradX m v c ∧
      lsGradY m (fun d => a * u d + b * v d) c = a * lsGradY m u c + b * lsGradY m v c := by
  unfold lsGradX lsGradY
  constructor
  · rw [foldl_bump, foldl_bump, foldl_bump]
    induction m.edges with
    | nil => simp
    | cons e es ih =>
      simp only [List.map_cons, List.sum_cons, zero_add] at ih ⊢
      rw [ih]
      by_cases h1 : e.1 = c <;> by_cases h2 : e.2 = c <;> simp only [h1, h2, if_true, if_false] <;> ring
  · rw [foldl_bump, foldl_bump, foldl_bump]
    induction m.edges with
    | nil => simp
    | cons e es ih =>
      simp only [List.map_cons, List.sum_cons, zero_add] at ih ⊢
      rw [ih]
      by_cases h1 : e.1 = c <;> by_cases h2 : e.2 = c <;> simp only [h1, h2, if_true, if_false] <;> ring

theorem lsGradients_frame (O : Ortho) (t : P2) (m : LSMesh) (q : CellField) :
    lsGradients (O.ls t m) (O.field q) = O.grad (lsGradients m q) := by
  unfold lsGradients Ortho.grad Ortho.field
  simp only [Prod.mk.injEq, CellField.mk.injEq]
  refine ⟨⟨?_, ?_, ?_⟩, ?_, ?_, ?_⟩ <;> funext c
  · exact (C76_gradient O t m q.h c).1
  · rw [(C76_gradient O t m _ c).1]
    unfold Ortho.x
    rw [(gradient_lin m _ _ _ _ c).1, (gradient_lin m _ _ _ _ c).2]
  · rw [(C76_gradient O t m _ c).1]
    unfold Ortho.x Ortho.y
    rw [(gradient_lin m _ _ _ _ c).1, (gradient_lin m _ _ _ _ c).2]
  · exact (C76_gradient O t m q.h c).2
  · rw [(C76_gradient O t m _ c).2]
    unfold Ortho.x Ortho.y
    rw [(gradient_lin m _ _ _ _ c).1, (gradient_lin m _ _ _ _ c).2]
  · rw [(C76_gradient O t m _ c).2]
    unfold Ortho.y
    rw [(gradient_lin m _ _ _ _ c).1, (gradient_lin m _ _ _ _ c).2]

theorem extrapolation_frame (O : Ortho) (t : P2) (m : LSMesh) (c : ℕ) (gx gy x0 y0 x1 y1 : ℝ) :
    extrapolation (O.ls t m) c (O.x gx gy) (O.y gx gy) (0.5 * (O.x x0 y0 + t.x + (O.x x1 y1 + t.x)))
      (0.5 * (O.y x0 y0 + t.y + (O.y x1 y1 + t.y))) =
      extrapolation m c gx gy (0.5 * (x0 + x1)) (0.5 * (y0 + y1)) := by
  unfold extrapolation
  have := O.dot gx gy (0.5 * (x0 + x1) - m.x c) (0.5 * (y0 + y1) - m.y c)
  rw [← this]
  simp only [Ortho.ls, Ortho.x, Ortho.y]
  ring

/-- the values of a scalar at an edge do not depend on the axes, with any limiter -/
theorem faceOf_frame (O : Ortho) (t : P2) (l : Limiter) (m : LSMesh) (q gx gy : ℕ → ℝ) (e : MEdge) :
    faceOf l (O.ls t m) q (fun c => O.x (gx c) (gy c)) (fun c => O.y (gx c) (gy c)) (O.medge t e) =
      faceOf l m q gx gy e := by
  unfold faceOf Ortho.medge
  simp only [extrapolation_frame]

theorem extrapolation_lin (m : LSMesh) (c : ℕ) (a b g1 g2 k1 k2 x y : ℝ) :
    extrapolation m c (a * g1 + b * k1) (a * g2 + b * k2) x y =
      a * extrapolation m c g1 g2 x y + b * extrapolation m c k1 k2 x y := by
  unfold extrapolation; ring

theorem faceOf_none_lin (m : LSMesh) (a b : ℝ) (u v gx gy kx ky : ℕ → ℝ) (e : MEdge) :
    faceOf .none m (fun c => a * u c + b * v c) (fun c => a * gx c + b * kx c)
      (fun c => a * gy c + b * ky c) e =
      (a * (faceOf .none m u gx gy e).1 + b * (faceOf .none m v kx ky e).1,
       a * (faceOf .none m u gx gy e).2 + b * (faceOf .none m v kx ky e).2) := by
  unfold faceOf faceValues limitSlope
  simp only [extrapolation_lin, Prod.mk.injEq]
  constructor <;> ring

theorem reconstructEdge_frame (O : Ortho) (t : P2) (m : LSMesh) (q : CellField) (g : CellField × CellField)
    (e : MEdge) :
    reconstructEdge .none (O.ls t m) (O.field q) (O.grad g) (O.medge t e) =
      O.redge (reconstructEdge .none m q g e) := by
  unfold reconstructEdge Ortho.redge Ortho.grad Ortho.field
  simp only [faceOf_frame]
  have h1 := faceOf_none_lin m O.p O.q q.hu q.hv g.1.hu g.2.hu g.1.hv g.2.hv e
  have h2 := faceOf_none_lin m O.r O.s q.hu q.hv g.1.hu g.2.hu g.1.hv g.2.hv e
  simp only [Ortho.x, Ortho.y] at *
  rw [h1, h2]
  rfl

theorem edge2R_frame (O : Ortho) (P : FlowParams) (area : ℕ → ℝ) (f : ℕ → Flux) (e : REdge) :
    interiorEdge2R P area (O.vec f) (O.redge e) = (interiorEdge2R P area f e).map O.vec := by
  unfold interiorEdge2R
  have h1 : rStates P (O.redge e) = (O.prim (rStates P e).1, O.prim (rStates P e).2) := by
    unfold rStates
    rw [← velocities_frame, ← velocities_frame]
    rfl
  rw [h1]
  have h2 := usedFlux_frame O P.g P.tinyH (rStates P e).1 (rStates P e).2 e.sn e.cn
  have h3 : (O.redge e).sn = O.y e.cn e.sn := rfl
  have h4 : (O.redge e).cn = O.x e.cn e.sn := rfl
  rw [h3, h4, h2, Option.map_map, Option.map_map]
  congr 1
  funext F
  simp only [Function.comp]
  rw [← addAt_frame, ← addAt_frame, smul_frame, smul_frame]
  rfl

/-- C76 (second order, without a limiter). The interior fluxes of the second-order scheme, computed in
other axes, are the fluxes in the other axes, if the scheme runs without a limiter. What is missing is
that the limiters, which act on each component of the momentum by itself, do not have this property. -/
theorem C76_second_order_partial (O : Ortho) (t : P2) (P : FlowParams) (m : LSMesh) (area : ℕ → ℝ)
    (own : ℕ → Bool) (ghost : CellField × CellField) (es : List MEdge) (q : CellField) :
    secondOrder P .none (O.ls t m) area own (O.grad ghost) (es.map (O.medge t)) (O.field q) =
      (secondOrder P .none m area own ghost es q).map O.vec := by
  unfold secondOrder applyInterior2R
  simp only [lsGradients_frame]
  generalize lsGradients m q = g
  have hg : ((⟨fun c => if own c then (O.grad g).1.h c else (O.grad ghost).1.h c,
        fun c => if own c then (O.grad g).1.hu c else (O.grad ghost).1.hu c,
        fun c => if own c then (O.grad g).1.hv c else (O.grad ghost).1.hv c⟩,
       ⟨fun c => if own c then (O.grad g).2.h c else (O.grad ghost).2.h c,
        fun c => if own c then (O.grad g).2.hu c else (O.grad ghost).2.hu c,
        fun c => if own c then (O.grad g).2.hv c else (O.grad ghost).2.hv c⟩) : CellField × CellField) =
      O.grad (⟨fun c => if own c then g.1.h c else ghost.1.h c,
        fun c => if own c then g.1.hu c else ghost.1.hu c,
        fun c => if own c then g.1.hv c else ghost.1.hv c⟩,
       ⟨fun c => if own c then g.2.h c else ghost.2.h c,
        fun c => if own c then g.2.hu c else ghost.2.hu c,
        fun c => if own c then g.2.hv c else ghost.2.hv c⟩) := by
    simp only [Ortho.grad, Prod.mk.injEq, CellField.mk.injEq]
    refine ⟨⟨?_, ?_, ?_⟩, ?_, ?_, ?_⟩ <;> funext c <;>
      by_cases h : own c = true <;> simp only [h, if_true, if_false, Bool.false_eq_true]
  rw [hg]
  have hz : (fun _ => Flux.zero : ℕ → Flux) = O.vec fun _ => Flux.zero := by
    funext i; exact (zero_frame O).symm
  have hf : (es.map (O.medge t)).filter MEdge.owned = (es.filter MEdge.owned).map (O.medge t) := by
    rw [List.filter_map]; rfl
  rw [hf, List.map_map]
  conv_lhs => rw [hz]
  have := foldlM_frame O O.redge _ _ (edge2R_frame O P area)
    ((es.filter MEdge.owned).map (reconstructEdge .none m q
      (⟨fun c => if own c then g.1.h c else ghost.1.h c,
        fun c => if own c then g.1.hu c else ghost.1.hu c,
        fun c => if own c then g.1.hv c else ghost.1.hv c⟩,
       ⟨fun c => if own c then g.2.h c else ghost.2.h c,
        fun c => if own c then g.2.hu c else ghost.2.hu c,
        fun c => if own c then g.2.hv c else ghost.2.hv c⟩))) (fun _ => Flux.zero)
  rw [List.map_map] at this
  rw [← this]
  congr 2
  funext e
  exact reconstructEdge_frame O t m q _ e

/-- a rotation with rational entries -/
noncomputable def turn345 : Ortho :=
  ⟨3 / 5, -4 / 5, 4 / 5, 3 / 5, by norm_num, by norm_num, by norm_num⟩

/-- a solution on the mesh `exCorner`: still in cell 0, moving in cells 1 and 2 -/
noncomputable def exMoving : CellField :=
  ⟨fun _ => 1, fun c => if c = 1 then 2 else 0, fun c => if c = 1 then 2 else if c = 2 then -2 else 0⟩

/-- the edge of `exCorner` between cells 0 and 1, with its midpoint away from the line of the centroids -/
noncomputable def exSkew : MEdge := ⟨0, 1, 1 / 2, 0, 1 / 2, 1, true, 1, 0, 1⟩

theorem exCorner_gradient (a b : ℝ) :
    lsGradX exCorner (fun c => if c = 1 then a else if c = 2 then b else 0) 0 = a ∧
      lsGradY exCorner (fun c => if c = 1 then a else if c = 2 then b else 0) 0 = b := by
  have hn : ∀ (k : ℝ), neighbours exCorner (fun d => linear a b k (exCorner.x d) (exCorner.y d)) 0 =
      [⟨1, 0, a⟩, ⟨0, 1, b⟩] := by
    intro k
    simp [neighbours, neighbour, exCorner, linear]
  have h := C50_spanning_partial exCorner 0 a b 0 ⟨1, 0, a⟩ ⟨0, 1, b⟩ [] (by rw [hn])
    (by norm_num [Neighbour.dist])
  have hq : ∀ d ∈ ({0, 1, 2} : Finset ℕ), linear a b 0 (exCorner.x d) (exCorner.y d) =
      if d = 1 then a else if d = 2 then b else 0 := by
    intro d hd
    simp only [Finset.mem_insert, Finset.mem_singleton] at hd
    rcases hd with rfl | rfl | rfl <;> simp [linear, exCorner]
  have hfun : ∀ q q' : ℕ → ℝ, (∀ d ∈ ({0, 1, 2} : Finset ℕ), q d = q' d) →
      lsGradX exCorner q 0 = lsGradX exCorner q' 0 ∧ lsGradY exCorner q 0 = lsGradY exCorner q' 0 := by
    intro q q' hqq
    have h0 := hqq 0 (by simp)
    have h1 := hqq 1 (by simp)
    have h2 := hqq 2 (by simp)
    unfold lsGradX lsGradY
    constructor
    · rw [foldl_bump, foldl_bump]; simp [exCorner, h0, h1, h2]
    · rw [foldl_bump, foldl_bump]; simp [exCorner, h0, h1, h2]
  obtain ⟨e1, e2⟩ := hfun _ _ hq
  rw [← e1, ← e2]
  exact h

example : lsGradX (swapAxes.ls ⟨7, 7⟩ exCorner) (fun c => if c = 1 then 3 else if c = 2 then 5 else 0) 0 = 5 := by
  rw [(C76_gradient swapAxes ⟨7, 7⟩ exCorner _ 0).1, (exCorner_gradient 3 5).1, (exCorner_gradient 3 5).2]
  simp [swapAxes, Ortho.x]

/-- three cells, turned: the fluxes exist in the one set of axes if they do in the other -/
example (P : FlowParams) (ghost : CellField × CellField) :
    (secondOrder P .none (turn345.ls ⟨0, 0⟩ exCorner) (fun _ => 1) (fun _ => true) (turn345.grad ghost)
      [turn345.medge ⟨0, 0⟩ exSkew] (turn345.field exMoving)).isSome =
    (secondOrder P .none exCorner (fun _ => 1) (fun _ => true) ghost [exSkew] exMoving).isSome := by
  have := C76_second_order_partial turn345 ⟨0, 0⟩ P exCorner (fun _ => 1) (fun _ => true) ghost [exSkew]
    exMoving
  rw [List.map_cons, List.map_nil] at this
  rw [this, Option.isSome_map]

/-- C76 (disagreement, limiters). With the default limiter the second-order scheme depends on the axes: at
an edge of a mesh of three cells, the momentum reconstructed in axes turned by the angle of a 3-4-5
triangle is not the one reconstructed in the original axes, turned. -/
theorem C76_second_order_violated :
    (reconstructEdge .minmod (turn345.ls ⟨0, 0⟩ exCorner) (turn345.field exMoving)
        (lsGradients (turn345.ls ⟨0, 0⟩ exCorner) (turn345.field exMoving)) (turn345.medge ⟨0, 0⟩ exSkew)).qL
      ≠ turn345.cons
        (reconstructEdge .minmod exCorner exMoving (lsGradients exCorner exMoving) exSkew).qL := by
  rw [lsGradients_frame]
  have g1 : (lsGradients exCorner exMoving).1.hu 0 = 2 ∧ (lsGradients exCorner exMoving).2.hu 0 = 0 := by
    have := exCorner_gradient 2 0
    simpa [lsGradients, exMoving] using this
  have g2 : (lsGradients exCorner exMoving).1.hv 0 = 2 ∧ (lsGradients exCorner exMoving).2.hv 0 = -2 := by
    have := exCorner_gradient 2 (-2)
    simpa [lsGradients, exMoving] using this
  generalize lsGradients exCorner exMoving = g at g1 g2
  intro h
  have hx := congrArg Cons.hu h
  simp only [reconstructEdge, Ortho.cons, faceOf, faceValues, limitSlope, extrapolation, Ortho.grad, exSkew,
    Ortho.medge, g1.1, g1.2, g2.1, g2.2, Ortho.ls, exCorner, Ortho.field, exMoving, Ortho.x, Ortho.y,
    turn345, minmod] at hx
  norm_num [abs_of_pos] at hx

end RDy
