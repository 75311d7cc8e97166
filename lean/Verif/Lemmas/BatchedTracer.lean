import Verif.Lemmas.Batched

/-! Lemmas about the batched flux operators with tracers. -/

namespace RDy

open Finset

theorem flat_inj' {nd o i o' i' : ℕ} (hi : i < nd) (hi' : i' < nd) :
    o * nd + i = o' * nd + i' ↔ o = o' ∧ i = i' := by
  rw [Nat.mul_comm o, Nat.mul_comm o']; exact flat_inj hi hi'

theorem flat_lt' {nd o i n : ℕ} (ho : o < n) (hi : i < nd) : o * nd + i < n * nd := by
  rw [Nat.mul_comm o, Nat.mul_comm n]; exact flat_lt ho hi

theorem loopM_congr {σ : Type} {step step' : σ → ℕ → Option σ} {n : ℕ} (h : ∀ k < n, ∀ s, step s k = step' s k) (s : σ) :
    loopM step n s = loopM step' n s := by
  induction n with
  | zero => rfl
  | succ n ih =>
    show (loopM step n s).bind _ = (loopM step' n s).bind _
    rw [ih fun k hk s => h k (by omega) s]
    congr 1
    funext s'
    exact h n (by omega) s'

/-- writing one row of a flat array -/
theorem row_put' {α : Type} {nd : ℕ} (G : ℕ → α) {f : Arr α} {e n : ℕ} (he : e < n) (hl : f.len = n * nd) :
    ∃ f', loopM (fun (f : Arr α) (d : ℕ) => f.put (e * nd + d) (G d)) nd f = some f' ∧ f'.len = f.len ∧
      ∀ o i, i < nd → f'.val (o * nd + i) = if o = e then G i else f.val (o * nd + i) := by
  obtain ⟨f', h1, h2, h3⟩ := loopM_inv (step := fun (f : Arr α) (d : ℕ) => f.put (e * nd + d) (G d)) (n := nd) (s := f)
    (fun k s => s.len = f.len ∧ ∀ o i, i < nd → s.val (o * nd + i) =
      if o = e ∧ i < k then G i else f.val (o * nd + i)) ⟨rfl, by intro o i _; simp⟩ (by
      rintro k hk s ⟨hsl, hsv⟩
      have hin : e * nd + k < s.len := by rw [hsl, hl]; exact flat_lt' he hk
      refine ⟨_, Arr.put_some _ hin, hsl, ?_⟩
      intro o i hi
      show Function.update s.val (e * nd + k) (G k) (o * nd + i) = _
      by_cases h : o = e ∧ i = k
      · obtain ⟨rfl, rfl⟩ := h
        rw [Function.update_self, if_pos ⟨rfl, by omega⟩]
      · rw [Function.update_of_ne (by rw [Ne, flat_inj' hi hk]; exact h), hsv o i hi]
        by_cases h2 : o = e ∧ i < k
        · rw [if_pos h2, if_pos ⟨h2.1, by omega⟩]
        · rw [if_neg h2, if_neg]
          rintro ⟨ho, hik⟩
          have : i ≠ k := fun hh => h ⟨ho, hh⟩
          exact h2 ⟨ho, by omega⟩)
  refine ⟨f', h1, h2, fun o i hi => ?_⟩
  rw [h3 o i hi]
  by_cases h : o = e
  · rw [if_pos ⟨h, hi⟩, if_pos h]
  · rw [if_neg (fun hh => h hh.1), if_neg h]

/-- the state of a cell in a vector of block size `3 + nt` -/
def tStateAt (nt : ℕ) (u : Arr ℝ) (c : ℕ) : TCons :=
  ⟨⟨u.val ((3 + nt) * c), u.val ((3 + nt) * c + 1), u.val ((3 + nt) * c + 2)⟩, fun j => u.val ((3 + nt) * c + 3 + j)⟩

/-- The arrays of one side of `n` edges have their lengths. -/
structure TSide.Sized (a : TSide) (n nt : ℕ) : Prop where
  st : a.st.len = n
  hci : a.hci.len = n * nt
  ci : a.ci.len = n * nt

/-- one side holds the conserved variables `q` for edge `e` -/
def TSide.Holds (a : TSide) (nt e : ℕ) (q : TCons) : Prop :=
  (a.st.val e).h = q.q.h ∧ (a.st.val e).hu = q.q.hu ∧ (a.st.val e).hv = q.q.hv ∧
    ∀ j < nt, a.hci.val (e * nt + j) = q.hc j

/-- one side holds the velocities and concentrations `p` for edge `e` -/
def TSide.HoldsPrim (a : TSide) (nt e : ℕ) (p : TPrim) : Prop :=
  (a.st.val e).prim = p.p ∧ ∀ j < nt, a.ci.val (e * nt + j) = p.c j

theorem tPutState_spec {nt n e nc c : ℕ} {a : TSide} (ha : a.Sized n nt) {u : Arr ℝ} (hu : u.len = (3 + nt) * nc)
    (he : e < n) (hc : c < nc) :
    ∃ a', tPutState nt a e u c = some a' ∧ a'.Sized n nt ∧ a'.Holds nt e (tStateAt nt u c) ∧
      ∀ e' ≠ e, ∀ q, a.Holds nt e' q → a'.Holds nt e' q := by
  have hin : ∀ j < 3 + nt, (3 + nt) * c + j < u.len := fun j hj => by rw [hu]; exact flat_lt hc hj
  obtain ⟨h', r1, r2, r3⟩ := row_put' (nd := nt) (fun s => u.val ((3 + nt) * c + 3 + s)) (f := a.hci) (e := e) he ha.hci
  unfold tPutState putState
  rw [Arr.get_some (hin 0 (by omega)), Arr.get_some (hin 1 (by omega)), Arr.get_some (hin 2 (by omega)),
    loopM_congr (step' := fun (h : Arr ℝ) (d : ℕ) => h.put (e * nt + d) (u.val ((3 + nt) * c + 3 + d)))
      (fun k hk s => by rw [Arr.get_some (by have := hin (3 + k) (by omega); omega)]; rfl) a.hci, r1]
  show ∃ a', ((a.st.get e).bind _).bind _ = some a' ∧ _
  rw [Arr.get_some (by rw [ha.st]; exact he)]
  show ∃ a', (a.st.put e _).bind _ = some a' ∧ _
  rw [Arr.put_some _ (by rw [ha.st]; exact he)]
  refine ⟨_, rfl, ⟨ha.st, r2.trans ha.hci, ha.ci⟩, ?_, ?_⟩
  · unfold TSide.Holds
    dsimp only
    rw [Function.update_self]
    refine ⟨rfl, rfl, rfl, ?_⟩
    intro j hj
    rw [r3 e j hj, if_pos rfl]
    rfl
  · intro e' hne q hq
    unfold TSide.Holds
    dsimp only
    rw [Function.update_of_ne hne]
    refine ⟨hq.1, hq.2.1, hq.2.2.1, ?_⟩
    intro j hj
    rw [r3 e' j hj, if_neg hne]
    exact hq.2.2.2 j hj

/-- velocities and concentrations of all edges -/
theorem tVelocitiesB_spec {tinyH : ℝ} {nt n : ℕ} {a : TSide} (ha : a.Sized n nt) :
    ∃ a', tVelocitiesB tinyH nt a = some a' ∧ a'.Sized n nt ∧
      ∀ e < n, ∀ q, a.Holds nt e q → a'.HoldsPrim nt e (tracerVelocities tinyH q) := by
  unfold tVelocitiesB
  rw [ha.st]
  obtain ⟨a', h1, h2, h3, h4, h5⟩ := loopM_inv (step := tVelocityStep tinyH nt) (n := n) (s := a)
    (fun k s => s.Sized n nt ∧ s.hci = a.hci ∧ (∀ e, (s.st.val e).h = (a.st.val e).h ∧ (s.st.val e).hu = (a.st.val e).hu ∧
      (s.st.val e).hv = (a.st.val e).hv) ∧
      ∀ e < k, ∀ q, a.Holds nt e q → s.HoldsPrim nt e (tracerVelocities tinyH q))
    ⟨ha, rfl, fun _ => ⟨rfl, rfl, rfl⟩, by intro e he; omega⟩ (by
      rintro k hk s ⟨hs, hci, hcons, hv⟩
      have hst : k < s.st.len := by rw [hs.st]; exact hk
      unfold tVelocityStep
      rw [Arr.get_some hst]
      show ∃ s', (if (s.st.val k).h < tinyH then _ else _) = some s' ∧ _
      by_cases hd : (s.st.val k).h < tinyH
      · obtain ⟨c', r1, r2, r3⟩ := row_put' (nd := nt) (fun _ => (0 : ℝ)) (f := s.ci) (e := k) hk hs.ci
        rw [if_pos hd, Arr.put_some _ hst]
        show ∃ s', (loopM _ nt s.ci).map _ = some s' ∧ _
        rw [r1]
        refine ⟨_, rfl, ⟨hs.st, hs.hci, r2.trans hs.ci⟩, hci, ?_, ?_⟩
        · intro e
          dsimp only
          by_cases h : e = k
          · subst h; rw [Function.update_self]; exact hcons e
          · rw [Function.update_of_ne h]; exact hcons e
        · intro e he q hq
          unfold TSide.HoldsPrim
          dsimp only
          by_cases h : e = k
          · subst h
            have hd' : q.q.h < tinyH := by rw [← hq.1, ← (hcons e).1]; exact hd
            rw [Function.update_self]
            unfold tracerVelocities
            rw [if_pos hd']
            refine ⟨?_, ?_⟩
            · show (⟨(s.st.val e).h, 0, 0⟩ : Prim) = _
              rw [(hcons e).1, hq.1]
            · intro j hj
              rw [r3 e j hj, if_pos rfl]
          · rw [Function.update_of_ne h]
            refine ⟨(hv e (by omega) q hq).1, ?_⟩
            intro j hj
            rw [r3 e j hj, if_neg h]
            exact (hv e (by omega) q hq).2 j hj
      · obtain ⟨c', r1, r2, r3⟩ := row_put' (nd := nt) (fun j => s.hci.val (k * nt + j) / (s.st.val k).h) (f := s.ci) (e := k)
          hk hs.ci
        rw [if_neg hd, Arr.put_some _ hst]
        show ∃ s', (loopM _ nt s.ci).map _ = some s' ∧ _
        rw [loopM_congr (step' := fun (c : Arr ℝ) (d : ℕ) => c.put (k * nt + d) (s.hci.val (k * nt + d) / (s.st.val k).h))
          (fun d hd' x => by rw [Arr.get_some (by rw [hs.hci]; exact flat_lt' hk hd')]; rfl) s.ci, r1]
        refine ⟨_, rfl, ⟨hs.st, hs.hci, r2.trans hs.ci⟩, hci, ?_, ?_⟩
        · intro e
          dsimp only
          by_cases h : e = k
          · subst h; rw [Function.update_self]; exact hcons e
          · rw [Function.update_of_ne h]; exact hcons e
        · intro e he q hq
          unfold TSide.HoldsPrim
          dsimp only
          by_cases h : e = k
          · subst h
            have hd' : ¬ q.q.h < tinyH := by rw [← hq.1, ← (hcons e).1]; exact hd
            rw [Function.update_self]
            unfold tracerVelocities
            rw [if_neg hd']
            refine ⟨?_, ?_⟩
            · show (⟨(s.st.val e).h, (s.st.val e).hu / (s.st.val e).h, (s.st.val e).hv / (s.st.val e).h⟩ : Prim) = _
              rw [(hcons e).1, (hcons e).2.1, (hcons e).2.2, hq.1, hq.2.1, hq.2.2.1]
            · intro j hj
              rw [r3 e j hj, if_pos rfl, hci, (hcons e).1, hq.1, hq.2.2.2 j hj]
          · rw [Function.update_of_ne h]
            refine ⟨(hv e (by omega) q hq).1, ?_⟩
            intro j hj
            rw [r3 e j hj, if_neg h]
            exact (hv e (by omega) q hq).2 j hj)
  exact ⟨a', h1, h2, h5⟩

/-- the entries of the matrix that are never assigned are still 0 -/
def MatrixClean (nt : ℕ) (Rm : ℕ → ℕ → Num) : Prop :=
  ∀ i j, i < 3 + nt → ((i < 3 ∧ 3 ≤ j) ∨ (3 ≤ i ∧ j ≠ 0 ∧ j ≠ 2 ∧ j ≠ i)) → Rm i j = some 0

theorem matrixStep_clean {nt : ℕ} {e : Option RoeEig} {sn cn : ℝ} {chat : ℕ → ℝ} {Rm : ℕ → ℕ → Num}
    (h : MatrixClean nt Rm) : MatrixClean nt (matrixStep nt e sn cn chat Rm) := by
  intro i j hi hij
  unfold matrixStep
  rw [if_neg (by omega), if_neg (by omega), if_neg (by omega)]
  exact h i j hi hij

theorem matrixStep_eq {nt : ℕ} {e : RoeEig} {sn cn : ℝ} {chat : ℕ → ℝ} {Rm : ℕ → ℕ → Num} (h : MatrixClean nt Rm)
    {i : ℕ} (hi : i < 3 + nt) (j : ℕ) :
    matrixStep nt (some e) sn cn chat Rm i j = some (tracerR e sn cn chat i j) := by
  unfold matrixStep tracerR
  by_cases h1 : i < 3
  · by_cases h2 : j < 3
    · rw [if_pos ⟨h1, h2⟩, if_pos h1, if_pos h2]; rfl
    · rw [if_neg (by omega), if_neg (by omega), if_neg (by omega), if_pos h1, if_neg h2]
      exact h i j hi (by omega)
  · by_cases h2 : j = 0 ∨ j = 2
    · rw [if_neg (by omega), if_pos (by omega), if_neg h1, if_pos h2]; rfl
    · by_cases h3 : j = i
      · rw [if_neg (by omega), if_neg (by omega), if_pos (by omega), if_neg h1, if_neg h2, if_pos h3]
      · rw [if_neg (by omega), if_neg (by omega), if_neg (by omega), if_neg h1, if_neg h2, if_neg h3]
        exact h i j hi (by omega)

theorem foldl_add_none (l : List ℕ) (G : ℕ → Num) : l.foldl (fun (x : Num) (d : ℕ) => x.add (G d)) none = none := by
  induction l with
  | nil => rfl
  | cons a l ih => exact ih

theorem foldl_add_some (n : ℕ) (G : ℕ → ℝ) (x : ℝ) :
    (List.range n).foldl (fun (x : Num) (d : ℕ) => x.add (some (G d))) (some x) = some (x + ∑ d ∈ range n, G d) := by
  induction n with
  | zero => simp
  | succ n ih =>
    rw [List.range_succ, List.foldl_append, ih, sum_range_succ]
    exact congrArg some (add_assoc _ _ _)

theorem tracerR_congr {e : RoeEig} {sn cn : ℝ} {chat chat' : ℕ → ℝ} {nt : ℕ} (h : ∀ j < nt, chat j = chat' j) {i : ℕ}
    (hi : i < 3 + nt) (d : ℕ) : tracerR e sn cn chat i d = tracerR e sn cn chat' i d := by
  unfold tracerR
  by_cases h1 : i < 3
  · rw [if_pos h1, if_pos h1]
  · rw [if_neg h1, if_neg h1, h (i - 3) (by omega)]

theorem tracerCombine_congr {g : ℝ} {nt : ℕ} {L R L' R' : TPrim} (hL : L.p = L'.p) (hR : R.p = R'.p)
    (hcl : ∀ j < nt, L.c j = L'.c j) (hcr : ∀ j < nt, R.c j = R'.c j) (e : RoeEig) (sn cn : ℝ) {i : ℕ} (hi : i < 3 + nt) :
    tracerCombine g nt L R e sn cn i = tracerCombine g nt L' R' e sn cn i := by
  have hch : ∀ j < nt, tracerChat L R j = tracerChat L' R' j := by
    intro j hj
    unfold tracerChat
    rw [hL, hR, hcl j hj, hcr j hj]
  have hs : ∀ (s s' : TPrim), s.p = s'.p → (∀ j < nt, s.c j = s'.c j) → tracerSide g s sn cn i = tracerSide g s' sn cn i := by
    intro s s' hp hc
    unfold tracerSide
    by_cases h0 : i = 0
    · rw [if_pos h0, if_pos h0, hp]
    · by_cases h1 : i = 1
      · rw [if_neg h0, if_neg h0, if_pos h1, if_pos h1, hp]
      · by_cases h2 : i = 2
        · rw [if_neg h0, if_neg h0, if_neg h1, if_neg h1, if_pos h2, if_pos h2, hp]
        · rw [if_neg h0, if_neg h0, if_neg h1, if_neg h1, if_neg h2, if_neg h2, hp, hc (i - 3) (by omega)]
  unfold tracerCombine
  rw [hs L L' hL hcl, hs R R' hR hcr]
  congr 1
  refine sum_congr rfl fun d hd => ?_
  have hd' := mem_range.mp hd
  rw [tracerR_congr hch hi d]
  congr 1
  unfold tracerW
  by_cases h : d < 3
  · rw [if_pos h, if_pos h]
  · rw [if_neg h, if_neg h, hL, hR, hcl (d - 3) (by omega), hcr (d - 3) (by omega), hch (d - 3) (by omega)]

theorem upwindCombine_congr {g : ℝ} {nt : ℕ} {L R L' R' : TPrim} (hL : L.p = L'.p) (hR : R.p = R'.p)
    (hcl : ∀ j < nt, L.c j = L'.c j) (hcr : ∀ j < nt, R.c j = R'.c j) (e : RoeEig) (sn cn : ℝ) {i : ℕ} (hi : i < 3 + nt) :
    upwindCombine g L R e sn cn i = upwindCombine g L' R' e sn cn i := by
  unfold upwindCombine
  dsimp only
  rw [hL, hR]
  by_cases h0 : i = 0
  · rw [if_pos h0, if_pos h0]
  · by_cases h1 : i = 1
    · rw [if_neg h0, if_neg h0, if_pos h1, if_pos h1]
    · by_cases h2 : i = 2
      · rw [if_neg h0, if_neg h0, if_neg h1, if_neg h1, if_pos h2, if_pos h2]
      · rw [if_neg h0, if_neg h0, if_neg h1, if_neg h1, if_neg h2, if_neg h2, hcl (i - 3) (by omega), hcr (i - 3) (by omega)]

theorem matrixFlux_eq {g : ℝ} {nt : ℕ} {L R : TPrim} {sn cn : ℝ} {Rm : ℕ → ℕ → Num} (h : MatrixClean nt Rm) {i : ℕ}
    (hi : i < 3 + nt) :
    matrixFlux g nt L R (eigOf g L.p R.p sn cn) sn cn (matrixStep nt (eigOf g L.p R.p sn cn) sn cn (tracerChat L R) Rm) i =
      (tracerFlux .roe g nt L R sn cn).map fun F => F i := by
  unfold matrixFlux tracerFlux eigOf
  by_cases hd : RoeDefined L.p.h R.p.h
  · rw [if_pos hd, if_pos hd]
    have : (fun (x : Num) (d : ℕ) => x.add ((matrixStep nt (some (roeEig g L.p R.p sn cn)) sn cn (tracerChat L R) Rm i d).bind
        fun r => (some (roeEig g L.p R.p sn cn)).map fun e => -(0.5 * r * tracerA e d * tracerW e L R d))) =
        fun (x : Num) (d : ℕ) => x.add (some (-(0.5 * tracerR (roeEig g L.p R.p sn cn) sn cn (tracerChat L R) i d *
          tracerA (roeEig g L.p R.p sn cn) d * tracerW (roeEig g L.p R.p sn cn) L R d))) := by
      funext x d
      rw [matrixStep_eq h hi d]
      rfl
    rw [this, foldl_add_some]
    show _ = some _
    unfold tracerCombine
    rw [sum_neg_distrib, ← sub_eq_add_neg]
  · rw [if_neg hd, if_neg hd]
    have h0 : ∀ (d : ℕ), ((matrixStep nt none sn cn (tracerChat L R) Rm i d).bind
        fun r => (none : Option RoeEig).map fun e => -(0.5 * r * tracerA e d * tracerW e L R d)) = none := by
      intro d
      cases matrixStep nt none sn cn (tracerChat L R) Rm i d <;> rfl
    have h1 : ∀ m : ℕ, 0 < m → ∀ x : Num, (List.range m).foldl (fun (x : Num) (_ : ℕ) => x.add none) x = none := by
      intro m hm x
      obtain ⟨m, rfl⟩ := Nat.exists_eq_succ_of_ne_zero hm.ne'
      rw [List.range_succ, List.foldl_append]
      show Num.add _ none = none
      cases (List.range m).foldl (fun (x : Num) (_ : ℕ) => x.add none) x <;> rfl
    simp only [h0]
    exact h1 (3 + nt) (by omega) _

/-- the entries of the array of fluxes after the Riemann solver -/
theorem tRoeB_spec {sv : TSolver} {g : ℝ} {nt n : ℕ} (hnt : 3 + nt ≤ maxFieldComponents) {L R : TSide} (hL : L.Sized n nt)
    (hR : R.Sized n nt) {sn cn : Arr ℝ} (hs : sn.len = n) (hc : cn.len = n) {fij : Arr Num} (hf : fij.len = (3 + nt) * n) :
    ∃ F, tRoeB sv g nt L R sn cn fij = some F ∧ F.len = fij.len ∧
      ∀ e < n, ∀ pL pR, L.HoldsPrim nt e pL → R.HoldsPrim nt e pR → ∀ i < 3 + nt,
        F.val ((3 + nt) * e + i) = (tracerFlux sv g nt pL pR (sn.val e) (cn.val e)).map fun F => F i := by
  unfold tRoeB
  rw [if_pos hnt, hL.st]
  obtain ⟨S, h1, ⟨h2, _⟩, h3⟩ := loopM_inv (step := tRoeStep sv g nt L R sn cn) (n := n) (s := (fun _ _ => some 0, fij))
    (fun k s => (s.2.len = fij.len ∧ MatrixClean nt s.1) ∧
      ∀ e < k, ∀ pL pR, L.HoldsPrim nt e pL → R.HoldsPrim nt e pR → ∀ i < 3 + nt,
        s.2.val ((3 + nt) * e + i) = (tracerFlux sv g nt pL pR (sn.val e) (cn.val e)).map fun F => F i)
    ⟨⟨rfl, fun _ _ _ _ => rfl⟩, by intro e he; omega⟩ (by
      rintro k hk ⟨Rm, f⟩ ⟨⟨hfl, hcl⟩, hv⟩
      dsimp only at hfl hcl hv
      have hconc : ∀ a : TSide, a.Sized n nt → tConc nt a k = some fun j => a.ci.val (k * nt + j) := by
        intro a ha
        unfold tConc
        rw [if_pos]
        intro j hj
        rw [ha.ci]
        exact flat_lt' hk hj
      unfold tRoeStep
      rw [Arr.get_some (by rw [hL.st]; exact hk), Arr.get_some (by rw [hR.st]; exact hk), Arr.get_some (by rw [hs]; exact hk),
        Arr.get_some (by rw [hc]; exact hk), hconc L hL, hconc R hR]
      cases sv with
      | roe =>
        obtain ⟨f', e1, e2, e3⟩ := row_put (nd := 3 + nt) (fun d => matrixFlux g nt
          ⟨(L.st.val k).prim, fun j => L.ci.val (k * nt + j)⟩ ⟨(R.st.val k).prim, fun j => R.ci.val (k * nt + j)⟩
          (eigOf g (L.st.val k).prim (R.st.val k).prim (sn.val k) (cn.val k)) (sn.val k) (cn.val k)
          (matrixStep nt (eigOf g (L.st.val k).prim (R.st.val k).prim (sn.val k) (cn.val k)) (sn.val k) (cn.val k)
            (tracerChat ⟨(L.st.val k).prim, fun j => L.ci.val (k * nt + j)⟩
              ⟨(R.st.val k).prim, fun j => R.ci.val (k * nt + j)⟩) Rm) d) (f := f) (e := k) (n := n) hk (by rw [hfl, hf])
        show ∃ s', (loopM _ (3 + nt) f).map _ = some s' ∧ _
        rw [e1]
        refine ⟨_, rfl, ⟨by rw [← hfl, ← e2], matrixStep_clean hcl⟩, ?_⟩
        intro e he pL pR hpL hpR i hi
        show f'.val _ = _
        rw [e3 e i hi]
        by_cases h : e = k
        · subst h
          rw [if_pos rfl]
          refine (matrixFlux_eq (L := ⟨(L.st.val e).prim, fun j => L.ci.val (e * nt + j)⟩)
            (R := ⟨(R.st.val e).prim, fun j => R.ci.val (e * nt + j)⟩) hcl hi).trans ?_
          unfold tracerFlux
          dsimp only
          rw [hpL.1, hpR.1]
          by_cases hd : RoeDefined pL.p.h pR.p.h
          · rw [if_pos hd, if_pos hd]
            exact congrArg some (tracerCombine_congr (L := ⟨pL.p, fun j => L.ci.val (e * nt + j)⟩)
              (R := ⟨pR.p, fun j => R.ci.val (e * nt + j)⟩) (L' := pL) (R' := pR) rfl rfl hpL.2 hpR.2 _ _ _ hi)
          · rw [if_neg hd, if_neg hd]
        · rw [if_neg h]
          exact hv e (by omega) pL pR hpL hpR i hi
      | upwind =>
        obtain ⟨f', e1, e2, e3⟩ := row_put (nd := 3 + nt) (fun d =>
          (eigOf g (L.st.val k).prim (R.st.val k).prim (sn.val k) (cn.val k)).map fun e => upwindCombine g
          ⟨(L.st.val k).prim, fun j => L.ci.val (k * nt + j)⟩ ⟨(R.st.val k).prim, fun j => R.ci.val (k * nt + j)⟩
          e (sn.val k) (cn.val k) d) (f := f) (e := k) (n := n) hk (by rw [hfl, hf])
        show ∃ s', (loopM _ (3 + nt) f).map _ = some s' ∧ _
        rw [e1]
        refine ⟨_, rfl, ⟨by rw [← hfl, ← e2], hcl⟩, ?_⟩
        intro e he pL pR hpL hpR i hi
        show f'.val _ = _
        rw [e3 e i hi]
        by_cases h : e = k
        · subst h
          rw [if_pos rfl]
          unfold tracerFlux eigOf
          rw [hpL.1, hpR.1]
          by_cases hd : RoeDefined pL.p.h pR.p.h
          · rw [if_pos hd, if_pos hd]
            exact congrArg some (upwindCombine_congr (L := ⟨pL.p, fun j => L.ci.val (e * nt + j)⟩)
              (R := ⟨pR.p, fun j => R.ci.val (e * nt + j)⟩) (L' := pL) (R' := pR) rfl rfl hpL.2 hpR.2 _ _ _ hi)
          · rw [if_neg hd, if_neg hd]
            rfl
        · rw [if_neg h]
          exact hv e (by omega) pL pR hpL hpR i hi)
  rw [h1]
  exact ⟨S.2, rfl, h2, h3⟩

/-! ### The interior operator -/

/-- The arrays of an operator for `n` edges have their lengths. -/
structure TBatch.Sized (b : TBatch) (n nt : ℕ) : Prop where
  left : b.left.Sized n nt
  right : b.right.Sized n nt
  sn : b.sn.len = n
  cn : b.cn.len = n
  flux : b.flux.len = (3 + nt) * n

/-- The arrays of normals hold those of the edges with two cells. -/
def TBatch.HasNormals (b : TBatch) (T : Tables) : Prop :=
  ∀ e < T.internal.len, (T.rightOf (T.internal.val e)).isSome = true →
    b.sn.val e = T.sn.val (T.internal.val e) ∧ b.cn.val e = T.cn.val (T.internal.val e)

theorem TBatch.create_sized (n nt : ℕ) : (TBatch.create n nt).Sized n nt :=
  ⟨⟨rfl, rfl, rfl⟩, ⟨rfl, rfl, rfl⟩, rfl, rfl, Nat.mul_comm n (3 + nt)⟩

theorem createTracerInteriorB_spec {T : Tables} {nc n ne : ℕ} (hT : T.Valid nc n ne) (nt : ℕ) :
    ∃ b, createTracerInteriorB T nt = some b ∧ b.Sized T.internal.len nt ∧ b.HasNormals T := by
  unfold createTracerInteriorB
  obtain ⟨b, h1, h2, h3⟩ := loopM_inv (step := tNormalStep T) (n := T.internal.len) (s := TBatch.create T.internal.len nt)
    (fun k b => b.Sized T.internal.len nt ∧ ∀ e < k, (T.rightOf (T.internal.val e)).isSome = true →
      b.sn.val e = T.sn.val (T.internal.val e) ∧ b.cn.val e = T.cn.val (T.internal.val e))
    ⟨TBatch.create_sized _ _, by intro e he; omega⟩ (by
      rintro k hk b ⟨hb, hv⟩
      have hid := hT.ids k hk
      unfold tNormalStep
      rw [Arr.get_some hk]
      show ∃ s', (T.cellIds.get (2 * T.internal.val k + 1)).bind _ = some s' ∧ _
      rw [Arr.get_some (by rw [hT.cellIds]; omega)]
      show ∃ s', (if T.cellIds.val (2 * T.internal.val k + 1) ≠ -1 then _ else _) = some s' ∧ _
      by_cases hr : T.cellIds.val (2 * T.internal.val k + 1) = -1
      · rw [if_neg (not_not.mpr hr)]
        refine ⟨b, rfl, hb, ?_⟩
        intro e he hs
        by_cases h : e = k
        · subst h; rw [rightOf_none hr] at hs; exact absurd hs (by simp)
        · exact hv e (by omega) hs
      · rw [if_pos hr, Arr.get_some (by rw [hT.cn]; exact hid)]
        show ∃ s', (b.cn.put k _).bind _ = some s' ∧ _
        rw [Arr.put_some _ (by rw [hb.cn]; exact hk)]
        show ∃ s', (T.sn.get _).bind _ = some s' ∧ _
        rw [Arr.get_some (by rw [hT.sn]; exact hid)]
        show ∃ s', (b.sn.put k _).bind _ = some s' ∧ _
        rw [Arr.put_some _ (by rw [hb.sn]; exact hk)]
        refine ⟨_, rfl, ⟨hb.left, hb.right, hb.sn, hb.cn, hb.flux⟩, ?_⟩
        intro e he hs
        show Function.update b.sn.val k _ e = _ ∧ Function.update b.cn.val k _ e = _
        by_cases h : e = k
        · subst h; rw [Function.update_self, Function.update_self]; exact ⟨rfl, rfl⟩
        · rw [Function.update_of_ne h, Function.update_of_ne h]; exact hv e (by omega) hs)
  exact ⟨b, h1, h2, h3⟩

theorem tGather_spec {T : Tables} {nc n ne nt : ℕ} (hT : T.Valid nc n ne) {u : Arr ℝ} (hu : u.len = (3 + nt) * nc)
    {b : TBatch} (hb : b.Sized T.internal.len nt) :
    ∃ b', loopM (tGatherStep nt T u) T.internal.len b = some b' ∧ b'.Sized T.internal.len nt ∧ b'.sn = b.sn ∧ b'.cn = b.cn ∧
      ∀ e < T.internal.len, ∀ r, T.rightOf (T.internal.val e) = some r →
        b'.left.Holds nt e (tStateAt nt u (T.leftOf (T.internal.val e))) ∧ b'.right.Holds nt e (tStateAt nt u r) := by
  obtain ⟨b', h1, h2, h3⟩ := loopM_inv (step := tGatherStep nt T u) (n := T.internal.len) (s := b)
    (fun k b' => (b'.Sized T.internal.len nt ∧ b'.sn = b.sn ∧ b'.cn = b.cn) ∧
      ∀ e < k, ∀ r, T.rightOf (T.internal.val e) = some r →
        b'.left.Holds nt e (tStateAt nt u (T.leftOf (T.internal.val e))) ∧ b'.right.Holds nt e (tStateAt nt u r))
    ⟨⟨hb, rfl, rfl⟩, by intro e he; omega⟩ (by
      rintro k hk s ⟨⟨hs, hs1, hs2⟩, hv⟩
      have hid := hT.ids k hk
      unfold tGatherStep
      rw [Arr.get_some hk]
      show ∃ s', (T.cellIds.get (2 * T.internal.val k)).bind _ = some s' ∧ _
      rw [Arr.get_some (by rw [hT.cellIds]; omega)]
      show ∃ s', (T.cellIds.get (2 * T.internal.val k + 1)).bind _ = some s' ∧ _
      rw [Arr.get_some (by rw [hT.cellIds]; omega)]
      show ∃ s', (if T.cellIds.val (2 * T.internal.val k + 1) ≠ -1 then _ else _) = some s' ∧ _
      by_cases hr : T.cellIds.val (2 * T.internal.val k + 1) = -1
      · rw [if_neg (not_not.mpr hr)]
        refine ⟨s, rfl, ⟨hs, hs1, hs2⟩, ?_⟩
        intro e he r hh
        by_cases h : e = k
        · subst h; rw [rightOf_none hr] at hh; exact absurd hh (by simp)
        · exact hv e (by omega) r hh
      · obtain ⟨hl0, hl1⟩ := hT.left _ hid
        obtain ⟨hr0, hr1⟩ := (hT.right _ hid).resolve_left hr
        obtain ⟨L, l1, l2, l3, l4⟩ := tPutState_spec hs.left hu hk hl1
        obtain ⟨R, r1, r2, r3, r4⟩ := tPutState_spec hs.right hu hk hr1
        rw [if_pos hr, asIndex_some hl0]
        show ∃ s', (asIndex (T.cellIds.val (2 * T.internal.val k + 1))).bind _ = some s' ∧ _
        rw [asIndex_some hr0]
        show ∃ s', (tPutState nt s.left k u _).bind _ = some s' ∧ _
        rw [l1]
        show ∃ s', (tPutState nt s.right k u _).bind _ = some s' ∧ _
        rw [r1]
        refine ⟨_, rfl, ⟨⟨l2, r2, hs.sn, hs.cn, hs.flux⟩, hs1, hs2⟩, ?_⟩
        intro e he r hh
        by_cases h : e = k
        · subst h
          rw [rightOf_some hr] at hh
          cases hh
          exact ⟨l3, r3⟩
        · obtain ⟨hx, hz⟩ := hv e (by omega) r hh
          exact ⟨l4 e h _ hx, r4 e h _ hz⟩)
  exact ⟨b', h1, h2.1, h2.2.1, h2.2.2, h3⟩

/-- what the edge `e` of the list of internal edges adds to entry `(o, i)` -/
noncomputable def tEdgeTerm (sv : TSolver) (P : FlowParams) (nt : ℕ) (T : Tables) (u : Arr ℝ) (o i e : ℕ) : Num :=
  match T.rightOf (T.internal.val e) with
  | none => some 0
  | some r =>
    (recv (T.owned.val (T.leftOf (T.internal.val e))) (T.l2o.val (T.leftOf (T.internal.val e))) o
      (Num.scale ((usedTracerFlux sv P.g P.tinyH nt
        (tracerVelocities P.tinyH (tStateAt nt u (T.leftOf (T.internal.val e)))) (tracerVelocities P.tinyH (tStateAt nt u r))
        (T.sn.val (T.internal.val e)) (T.cn.val (T.internal.val e))).map fun F => F i)
        (-(T.elen.val (T.internal.val e)) / T.area.val (T.leftOf (T.internal.val e))))).add
    (recv (T.owned.val r) (T.l2o.val r) o
      (Num.scale ((usedTracerFlux sv P.g P.tinyH nt
        (tracerVelocities P.tinyH (tStateAt nt u (T.leftOf (T.internal.val e)))) (tracerVelocities P.tinyH (tStateAt nt u r))
        (T.sn.val (T.internal.val e)) (T.cn.val (T.internal.val e))).map fun F => F i)
        (T.elen.val (T.internal.val e) / T.area.val r)))

theorem tracerVelocities_depth (tinyH : ℝ) (q : TCons) : (tracerVelocities tinyH q).p.h = q.q.h := by
  unfold tracerVelocities; split <;> rfl

/-- The interior operator with tracers: no undefined access, and the result depends on the state only. -/
theorem applyTracerInteriorB_spec {sv : TSolver} {P : FlowParams} {T : Tables} {nc n ne nt : ℕ}
    (hnt : 3 + nt ≤ maxFieldComponents) (hT : T.Valid nc n ne) {u : Arr ℝ}
    (hu : u.len = (3 + nt) * nc) {b : TBatch} (hb : b.Sized T.internal.len nt) (hn : b.HasNormals T) {f : Arr Num}
    (hf : f.len = (3 + nt) * n) :
    ∃ b' f', applyTracerInteriorB sv P nt T b u f = some (b', f') ∧ b'.Sized T.internal.len nt ∧ b'.HasNormals T ∧
      f'.len = f.len ∧ ∀ o i, i < 3 + nt → f'.val ((3 + nt) * o + i) = (List.range T.internal.len).foldl
        (fun (a : Num) (e : ℕ) => a.add (tEdgeTerm sv P nt T u o i e)) (f.val ((3 + nt) * o + i)) := by
  obtain ⟨b1, g1, g2, g3, g4, g6⟩ := tGather_spec hT hu hb
  obtain ⟨L, l1, l2, l3⟩ := tVelocitiesB_spec (tinyH := P.tinyH) g2.left
  obtain ⟨R, q1, q2, q3⟩ := tVelocitiesB_spec (tinyH := P.tinyH) g2.right
  obtain ⟨F, r1, r2, r3⟩ := tRoeB_spec (sv := sv) (g := P.g) hnt l2 q2 g2.sn g2.cn g2.flux
  unfold applyTracerInteriorB
  rw [g1]
  show ∃ b' f', (tVelocitiesB P.tinyH nt b1.left).bind _ = _ ∧ _
  rw [l1]
  show ∃ b' f', (tVelocitiesB P.tinyH nt b1.right).bind _ = _ ∧ _
  rw [q1]
  show ∃ b' f', (tRoeB sv P.g nt L R b1.sn b1.cn b1.flux).bind _ = _ ∧ _
  rw [r1]
  have hF : ∀ e < T.internal.len, ∀ r, T.rightOf (T.internal.val e) = some r → ∀ i < 3 + nt,
      F.val ((3 + nt) * e + i) = (tracerFlux sv P.g nt
        (tracerVelocities P.tinyH (tStateAt nt u (T.leftOf (T.internal.val e)))) (tracerVelocities P.tinyH (tStateAt nt u r))
        (T.sn.val (T.internal.val e)) (T.cn.val (T.internal.val e))).map fun F => F i := by
    intro e he r hr i hi
    obtain ⟨hx, hz⟩ := g6 e he r hr
    obtain ⟨hs, hc⟩ := hn e he (by rw [hr]; rfl)
    rw [r3 e he _ _ (l3 e he _ hx) (q3 e he _ hz) i hi, g3, g4, hs, hc]
  obtain ⟨f', a1, a2, a3⟩ := loopM_inv (step := tAddStep P nt T u F) (n := T.internal.len) (s := f)
    (fun k s => s.len = f.len ∧ ∀ o i, i < 3 + nt → s.val ((3 + nt) * o + i) =
      (List.range k).foldl (fun (a : Num) (e : ℕ) => a.add (tEdgeTerm sv P nt T u o i e)) (f.val ((3 + nt) * o + i)))
    ⟨rfl, by intro o i _; rfl⟩ (by
      rintro k hk s ⟨hsl, hsv⟩
      have hid := hT.ids k hk
      unfold tAddStep
      rw [Arr.get_some hk]
      show ∃ s', (T.cellIds.get (2 * T.internal.val k)).bind _ = some s' ∧ _
      rw [Arr.get_some (by rw [hT.cellIds]; omega)]
      show ∃ s', (T.cellIds.get (2 * T.internal.val k + 1)).bind _ = some s' ∧ _
      rw [Arr.get_some (by rw [hT.cellIds]; omega)]
      show ∃ s', (if T.cellIds.val (2 * T.internal.val k + 1) ≠ -1 then _ else _) = some s' ∧ _
      by_cases hr : T.cellIds.val (2 * T.internal.val k + 1) = -1
      · rw [if_neg (not_not.mpr hr)]
        refine ⟨s, rfl, hsl, ?_⟩
        intro o i hi
        rw [List.range_succ, List.foldl_append, ← hsv o i hi]
        show _ = (s.val ((3 + nt) * o + i)).add (tEdgeTerm sv P nt T u o i k)
        unfold tEdgeTerm
        rw [rightOf_none hr]
        exact (Num.add_zero' _).symm
      · obtain ⟨hl0, hl1⟩ := hT.left _ hid
        obtain ⟨hr0, hr1⟩ := (hT.right _ hid).resolve_left hr
        rw [if_pos hr, asIndex_some hl0]
        show ∃ s', (asIndex (T.cellIds.val (2 * T.internal.val k + 1))).bind _ = some s' ∧ _
        rw [asIndex_some hr0]
        show ∃ s', (u.get _).bind _ = some s' ∧ _
        rw [Arr.get_some (by rw [hu]; exact flat_lt hl1 (by omega))]
        show ∃ s', (u.get _).bind _ = some s' ∧ _
        rw [Arr.get_some (by rw [hu]; exact flat_lt hr1 (by omega))]
        show ∃ s', (if (tStateAt nt u (T.cellIds.val (2 * T.internal.val k + 1)).toNat).q.h < P.tinyH ∧
          (tStateAt nt u (T.leftOf (T.internal.val k))).q.h < P.tinyH then _ else _) = some s' ∧ _
        by_cases hd : (tStateAt nt u (T.cellIds.val (2 * T.internal.val k + 1)).toNat).q.h < P.tinyH ∧
            (tStateAt nt u (T.leftOf (T.internal.val k))).q.h < P.tinyH
        · rw [if_pos hd]
          refine ⟨s, rfl, hsl, ?_⟩
          intro o i hi
          rw [List.range_succ, List.foldl_append, ← hsv o i hi]
          show _ = (s.val ((3 + nt) * o + i)).add (tEdgeTerm sv P nt T u o i k)
          unfold tEdgeTerm usedTracerFlux
          rw [rightOf_some hr]
          dsimp only
          rw [if_neg (by rw [tracerVelocities_depth, tracerVelocities_depth]; exact not_not.mpr hd), Option.map_some, Num.scale_zero,
            Num.scale_zero, recv_zero, recv_zero, Num.add_zero', Num.add_zero']
        · rw [if_neg hd]
          obtain ⟨f', e1, e2, e3⟩ := addToCells_spec (nd := 3 + nt) (flux := F) (f := s) hl1 hr1 hT.owned hT.l2o hT.area
            hT.range (show T.internal.val k < T.elen.len by rw [hT.elen]; exact hid) (by rw [hsl, hf]) (r2.trans g2.flux) hk
          refine ⟨f', e1, by rw [e2, hsl], ?_⟩
          intro o i hi
          rw [List.range_succ, List.foldl_append, ← hsv o i hi, e3 o i hi, hF k hk _ (rightOf_some hr) i hi, Num.add_assoc']
          show _ = (s.val ((3 + nt) * o + i)).add (tEdgeTerm sv P nt T u o i k)
          unfold tEdgeTerm usedTracerFlux
          rw [rightOf_some hr]
          dsimp only
          rw [if_pos (by rw [tracerVelocities_depth, tracerVelocities_depth]; exact hd)]
          rfl)
  show ∃ b' f', (loopM _ T.internal.len f).map _ = _ ∧ _
  rw [a1]
  refine ⟨_, f', rfl, ⟨l2, q2, g2.sn, g2.cn, r2.trans g2.flux⟩, ?_, a2, a3⟩
  intro e he hs
  show b1.sn.val e = _ ∧ b1.cn.val e = _
  rw [g3, g4]
  exact hn e he hs

/-! ### The operator of a boundary -/

/-- What the tables of a boundary have to satisfy: its edges exist, there are values for each of them. -/
structure TBnd.Valid (B : TBnd) (ne nt : ℕ) : Prop where
  ids : ∀ e < B.ids.len, B.ids.val e < ne
  values : B.values.len = (3 + nt) * B.ids.len

/-- The arrays of a boundary's operator have their lengths and hold the normals. -/
structure TBState.Ready (s : TBState) (nt : ℕ) (T : Tables) (B : TBnd) : Prop where
  left : s.batch.left.Sized B.ids.len nt
  right : s.batch.right.Sized B.ids.len nt
  sn : s.batch.sn.len = B.ids.len
  cn : s.batch.cn.len = B.ids.len
  fluxes : s.fluxes.len = (3 + nt) * B.ids.len
  normals : ∀ e < B.ids.len, s.batch.sn.val e = T.sn.val (B.ids.val e) ∧ s.batch.cn.val e = T.cn.val (B.ids.val e)

/-- the condition of edge `e` of a boundary -/
def TBnd.cond (B : TBnd) (nt e : ℕ) : TBCond :=
  match B.type with
  | .dirichlet => .dirichlet (tStateAt nt B.values e)
  | .reflecting => .reflecting

/-- the left state of edge `e` of a boundary -/
noncomputable def tbLeft (P : FlowParams) (nt : ℕ) (T : Tables) (B : TBnd) (u : Arr ℝ) (e : ℕ) : TPrim :=
  tracerVelocities P.tinyH (tStateAt nt u (T.leftOf (B.ids.val e)))

/-- the right state of edge `e` of a boundary -/
noncomputable def tbRight (P : FlowParams) (nt : ℕ) (T : Tables) (B : TBnd) (u : Arr ℝ) (e : ℕ) : TPrim :=
  tracerRight P.tinyH (B.cond nt e) (tbLeft P nt T B u e) (T.sn.val (B.ids.val e)) (T.cn.val (B.ids.val e))

/-- what edge `e` of a boundary adds to entry `(o, i)` -/
noncomputable def tbEdgeTerm (sv : TSolver) (P : FlowParams) (nt : ℕ) (T : Tables) (B : TBnd) (u : Arr ℝ) (o i e : ℕ) : Num :=
  recv (T.owned.val (T.leftOf (B.ids.val e))) (T.l2o.val (T.leftOf (B.ids.val e))) o
    (Num.scale ((usedTracerFlux sv P.g P.tinyH nt (tbLeft P nt T B u e) (tbRight P nt T B u e) (T.sn.val (B.ids.val e))
      (T.cn.val (B.ids.val e))).map fun F => F i)
      (-(T.elen.val (B.ids.val e)) / T.area.val (T.leftOf (B.ids.val e))))

theorem createTracerBoundaryB_spec {T : Tables} {nc n ne nt : ℕ} (hT : T.Valid nc n ne) {B : TBnd} (hB : B.Valid ne nt) :
    ∃ s, createTracerBoundaryB T nt B = some s ∧ s.Ready nt T B := by
  unfold createTracerBoundaryB
  obtain ⟨b, h1, h2, h3⟩ := loopM_inv (step := tbNormalStep T B) (n := B.ids.len) (s := TBatch.create B.ids.len nt)
    (fun k b => b.Sized B.ids.len nt ∧ ∀ e < k,
      b.sn.val e = T.sn.val (B.ids.val e) ∧ b.cn.val e = T.cn.val (B.ids.val e))
    ⟨TBatch.create_sized _ _, by intro e he; omega⟩ (by
      rintro k hk b ⟨hb, hv⟩
      have hid := hB.ids k hk
      unfold tbNormalStep
      rw [Arr.get_some hk]
      show ∃ s', (T.cn.get (B.ids.val k)).bind _ = some s' ∧ _
      rw [Arr.get_some (by rw [hT.cn]; exact hid)]
      show ∃ s', (b.cn.put k _).bind _ = some s' ∧ _
      rw [Arr.put_some _ (by rw [hb.cn]; exact hk)]
      show ∃ s', (T.sn.get _).bind _ = some s' ∧ _
      rw [Arr.get_some (by rw [hT.sn]; exact hid)]
      show ∃ s', (b.sn.put k _).bind _ = some s' ∧ _
      rw [Arr.put_some _ (by rw [hb.sn]; exact hk)]
      refine ⟨_, rfl, ⟨hb.left, hb.right, hb.sn, hb.cn, hb.flux⟩, ?_⟩
      intro e he
      show Function.update b.sn.val k _ e = _ ∧ Function.update b.cn.val k _ e = _
      by_cases h : e = k
      · subst h; rw [Function.update_self, Function.update_self]; exact ⟨rfl, rfl⟩
      · rw [Function.update_of_ne h, Function.update_of_ne h]; exact hv e (by omega))
  rw [h1]
  exact ⟨_, rfl, ⟨h2.left, h2.right, h2.sn, h2.cn, rfl, h3⟩⟩

theorem tbGather_spec {T : Tables} {nc n ne nt : ℕ} (hT : T.Valid nc n ne) {B : TBnd} (hB : B.Valid ne nt) {u : Arr ℝ}
    (hu : u.len = (3 + nt) * nc) {a : TSide} (ha : a.Sized B.ids.len nt) :
    ∃ a', loopM (tbGatherStep nt T B u) B.ids.len a = some a' ∧ a'.Sized B.ids.len nt ∧
      ∀ e < B.ids.len, a'.Holds nt e (tStateAt nt u (T.leftOf (B.ids.val e))) := by
  refine loopM_inv (step := tbGatherStep nt T B u) (n := B.ids.len) (s := a)
    (fun k a' => a'.Sized B.ids.len nt ∧ ∀ e < k, a'.Holds nt e (tStateAt nt u (T.leftOf (B.ids.val e))))
    ⟨ha, by intro e he; omega⟩ ?_
  rintro k hk s ⟨hs, hv⟩
  have hid := hB.ids k hk
  obtain ⟨hl0, hl1⟩ := hT.left _ hid
  obtain ⟨L, l1, l2, l3, l4⟩ := tPutState_spec hs hu hk hl1
  unfold tbGatherStep
  rw [Arr.get_some hk]
  show ∃ s', (T.cellIds.get (2 * B.ids.val k)).bind _ = some s' ∧ _
  rw [Arr.get_some (by rw [hT.cellIds]; omega)]
  show ∃ s', (asIndex _).bind _ = some s' ∧ _
  rw [asIndex_some hl0]
  refine ⟨L, l1, l2, ?_⟩
  intro e he
  by_cases h : e = k
  · subst h; exact l3
  · exact l4 e h _ (hv e (by omega))

theorem tDirichlet_gather {B : TBnd} {ne nt : ℕ} (hB : B.Valid ne nt) {a : TSide} (ha : a.Sized B.ids.len nt) :
    ∃ a', loopM (fun (a : TSide) (e : ℕ) => tPutState nt a e B.values e) B.ids.len a = some a' ∧ a'.Sized B.ids.len nt ∧
      ∀ e < B.ids.len, a'.Holds nt e (tStateAt nt B.values e) := by
  refine loopM_inv (step := fun (a : TSide) (e : ℕ) => tPutState nt a e B.values e) (n := B.ids.len) (s := a)
    (fun k a' => a'.Sized B.ids.len nt ∧ ∀ e < k, a'.Holds nt e (tStateAt nt B.values e))
    ⟨ha, by intro e he; omega⟩ ?_
  rintro k hk s ⟨hs, hv⟩
  obtain ⟨L, l1, l2, l3, l4⟩ := tPutState_spec hs hB.values hk hk
  refine ⟨L, l1, l2, ?_⟩
  intro e he
  by_cases h : e = k
  · subst h; exact l3
  · exact l4 e h _ (hv e (by omega))

theorem tCondition_spec {P : FlowParams} {T : Tables} {nc n ne nt : ℕ} (hT : T.Valid nc n ne) {B : TBnd} (hB : B.Valid ne nt)
    {s : TBState} (hs : s.Ready nt T B) {u : Arr ℝ} {L R : TSide} (hL : L.Sized B.ids.len nt) (hR : R.Sized B.ids.len nt)
    (hLv : ∀ e < B.ids.len, L.HoldsPrim nt e (tbLeft P nt T B u e)) :
    ∃ R', tConditionB P nt T B s.batch.sn s.batch.cn L R = some R' ∧ R'.Sized B.ids.len nt ∧
      ∀ e < B.ids.len, T.owned.val (T.leftOf (B.ids.val e)) = true → R'.HoldsPrim nt e (tbRight P nt T B u e) := by
  unfold tConditionB tbRight TBnd.cond
  cases ht : B.type with
  | dirichlet =>
    dsimp only
    obtain ⟨R1, r1, r2, r3⟩ := tDirichlet_gather hB hR
    obtain ⟨R2, v1, v2, v3⟩ := tVelocitiesB_spec (tinyH := P.tinyH) r2
    rw [r1]
    refine ⟨R2, v1, v2, ?_⟩
    intro e he _
    exact v3 e he _ (r3 e he)
  | reflecting =>
    dsimp only
    refine loopM_inv (step := tReflectStep nt T B L s.batch.sn s.batch.cn) (n := B.ids.len) (s := R)
      (fun k a => a.Sized B.ids.len nt ∧ ∀ e < k, T.owned.val (T.leftOf (B.ids.val e)) = true →
        a.HoldsPrim nt e (tracerRight P.tinyH .reflecting (tbLeft P nt T B u e) (T.sn.val (B.ids.val e))
          (T.cn.val (B.ids.val e)))) ⟨hR, by intro e he; omega⟩ ?_
    rintro k hk a ⟨hal, hav⟩
    have hid := hB.ids k hk
    obtain ⟨hl0, hl1⟩ := hT.left _ hid
    obtain ⟨hsn, hcn⟩ := hs.normals k hk
    unfold tReflectStep
    rw [Arr.get_some hk]
    show ∃ s', (T.cellIds.get _).bind _ = some s' ∧ _
    rw [Arr.get_some (by rw [hT.cellIds]; omega)]
    show ∃ s', (asIndex _).bind _ = some s' ∧ _
    rw [asIndex_some hl0]
    show ∃ s', (T.owned.get (T.leftOf (B.ids.val k))).bind _ = some s' ∧ _
    rw [Arr.get_some (by rw [hT.owned]; exact hl1)]
    show ∃ s', (if T.owned.val (T.leftOf (B.ids.val k)) = true then _ else _) = some s' ∧ _
    by_cases hw : T.owned.val (T.leftOf (B.ids.val k)) = true
    · obtain ⟨c', r1, r2, r3⟩ := row_put' (nd := nt) (fun j => L.ci.val (k * nt + j)) (f := a.ci) (e := k) hk hal.ci
      rw [if_pos hw, Arr.get_some (by rw [hL.st]; exact hk), Arr.get_some (by rw [hal.st]; exact hk),
        Arr.get_some (by rw [hs.sn]; exact hk), Arr.get_some (by rw [hs.cn]; exact hk)]
      show ∃ s', (a.st.put k _).bind _ = some s' ∧ _
      rw [Arr.put_some _ (by rw [hal.st]; exact hk)]
      show ∃ s', (loopM _ nt a.ci).map _ = some s' ∧ _
      rw [loopM_congr (step' := fun (c : Arr ℝ) (d : ℕ) => c.put (k * nt + d) (L.ci.val (k * nt + d)))
        (fun d hd' x => by rw [Arr.get_some (by rw [hL.ci]; exact flat_lt' hk hd')]; rfl) a.ci, r1]
      refine ⟨_, rfl, ⟨hal.st, hal.hci, r2.trans hal.ci⟩, ?_⟩
      intro e he hwe
      unfold TSide.HoldsPrim
      dsimp only
      by_cases h : e = k
      · subst h
        obtain ⟨p1, p2⟩ := hLv e hk
        rw [Function.update_self]
        refine ⟨?_, ?_⟩
        · show _ = reflectRight (tbLeft P nt T B u e).p _ _
          rw [← p1, hsn, hcn]
          rfl
        · intro j hj
          rw [r3 e j hj, if_pos rfl]
          exact p2 j hj
      · rw [Function.update_of_ne h]
        refine ⟨(hav e (by omega) hwe).1, ?_⟩
        intro j hj
        rw [r3 e j hj, if_neg h]
        exact (hav e (by omega) hwe).2 j hj
    · rw [if_neg hw]
      refine ⟨a, rfl, hal, ?_⟩
      intro e he hwe
      by_cases h : e = k
      · subst h; exact absurd hwe hw
      · exact hav e (by omega) hwe

/-- The operator of a boundary with tracers: no undefined access, and result and fluxes depend on the state only. -/
theorem applyTracerBoundaryB_spec {sv : TSolver} {P : FlowParams} {T : Tables} {nc n ne nt : ℕ}
    (hnt : 3 + nt ≤ maxFieldComponents) (hT : T.Valid nc n ne) {B : TBnd} (hB : B.Valid ne nt)
    {s : TBState} (hs : s.Ready nt T B) {u : Arr ℝ} (hu : u.len = (3 + nt) * nc) {f : Arr Num} (hf : f.len = (3 + nt) * n) :
    ∃ s' f', applyTracerBoundaryB sv P nt T B s u f = some (s', f') ∧ s'.Ready nt T B ∧ f'.len = f.len ∧
      (∀ o i, i < 3 + nt → f'.val ((3 + nt) * o + i) = (List.range B.ids.len).foldl
        (fun (a : Num) (e : ℕ) => a.add (tbEdgeTerm sv P nt T B u o i e)) (f.val ((3 + nt) * o + i))) ∧
      ∀ e < B.ids.len, T.owned.val (T.leftOf (B.ids.val e)) = true → ∀ i < 3 + nt,
        s'.fluxes.val ((3 + nt) * e + i) = (tracerFlux sv P.g nt (tbLeft P nt T B u e) (tbRight P nt T B u e)
          (T.sn.val (B.ids.val e)) (T.cn.val (B.ids.val e))).map fun F => F i := by
  obtain ⟨L1, g1, g2, g3⟩ := tbGather_spec hT hB hu hs.left
  obtain ⟨L, l1, l2, l3⟩ := tVelocitiesB_spec (tinyH := P.tinyH) g2
  obtain ⟨R, c1, c2, c4⟩ := tCondition_spec (P := P) (s := s) hT hB hs (u := u) l2 hs.right
    (fun e he => l3 e he _ (g3 e he))
  obtain ⟨F, r1, r2, r3⟩ := tRoeB_spec (sv := sv) (g := P.g) hnt l2 c2 hs.sn hs.cn hs.fluxes
  unfold applyTracerBoundaryB
  rw [g1]
  show ∃ s' f', (tVelocitiesB _ _ _).bind _ = _ ∧ _
  rw [l1]
  show ∃ s' f', (tConditionB P nt T B s.batch.sn s.batch.cn _ s.batch.right).bind _ = _ ∧ _
  rw [c1]
  show ∃ s' f', (tRoeB sv P.g nt L R s.batch.sn s.batch.cn s.fluxes).bind _ = _ ∧ _
  rw [r1]
  have hF : ∀ e < B.ids.len, T.owned.val (T.leftOf (B.ids.val e)) = true → ∀ i < 3 + nt,
      F.val ((3 + nt) * e + i) = (tracerFlux sv P.g nt (tbLeft P nt T B u e) (tbRight P nt T B u e)
        (T.sn.val (B.ids.val e)) (T.cn.val (B.ids.val e))).map fun F => F i := by
    intro e he hw i hi
    obtain ⟨n1, n2⟩ := hs.normals e he
    rw [r3 e he _ _ (l3 e he _ (g3 e he)) (c4 e he hw) i hi, n1, n2]
    rfl
  obtain ⟨f', a1, a2, a3⟩ := loopM_inv (step := tbAddStep P nt T B L R F) (n := B.ids.len) (s := f)
    (fun k a => a.len = f.len ∧ ∀ o i, i < 3 + nt → a.val ((3 + nt) * o + i) = (List.range k).foldl
        (fun (a : Num) (e : ℕ) => a.add (tbEdgeTerm sv P nt T B u o i e)) (f.val ((3 + nt) * o + i)))
    ⟨rfl, by intro o i _; rfl⟩ (by
      rintro k hk a ⟨hal, hav⟩
      have hid := hB.ids k hk
      obtain ⟨hl0, hl1⟩ := hT.left _ hid
      unfold tbAddStep
      rw [Arr.get_some hk]
      show ∃ s', (T.elen.get _).bind _ = some s' ∧ _
      rw [Arr.get_some (by rw [hT.elen]; exact hid)]
      show ∃ s', (T.cellIds.get _).bind _ = some s' ∧ _
      rw [Arr.get_some (by rw [hT.cellIds]; omega)]
      show ∃ s', (asIndex _).bind _ = some s' ∧ _
      rw [asIndex_some hl0]
      show ∃ s', (T.owned.get (T.leftOf (B.ids.val k))).bind _ = some s' ∧ _
      rw [Arr.get_some (by rw [hT.owned]; exact hl1)]
      show ∃ s', (if T.owned.val (T.leftOf (B.ids.val k)) = true then _ else _) = some s' ∧ _
      by_cases hw : T.owned.val (T.leftOf (B.ids.val k)) = true
      · have p1 : (L.st.val k).prim = (tbLeft P nt T B u k).p := (l3 k hk _ (g3 k hk)).1
        have p2 := (c4 k hk hw).1
        rw [if_pos hw]
        show ∃ s', (T.area.get (T.leftOf (B.ids.val k))).bind _ = some s' ∧ _
        rw [Arr.get_some (by rw [hT.area]; exact hl1)]
        show ∃ s', (L.st.get k).bind _ = some s' ∧ _
        rw [Arr.get_some (by rw [l2.st]; exact hk)]
        show ∃ s', (R.st.get k).bind _ = some s' ∧ _
        rw [Arr.get_some (by rw [c2.st]; exact hk)]
        show ∃ s', (if (L.st.val k).h < P.tinyH ∧ (R.st.val k).h < P.tinyH then _ else _) = some s' ∧ _
        rw [← prim_h (L.st.val k), ← prim_h (R.st.val k), p1, p2]
        by_cases hd : (tbLeft P nt T B u k).p.h < P.tinyH ∧ (tbRight P nt T B u k).p.h < P.tinyH
        · rw [if_pos hd]
          refine ⟨a, rfl, hal, ?_⟩
          intro o i hi
          rw [List.range_succ, List.foldl_append, ← hav o i hi]
          show _ = (a.val ((3 + nt) * o + i)).add (tbEdgeTerm sv P nt T B u o i k)
          unfold tbEdgeTerm usedTracerFlux
          rw [if_neg (not_not.mpr hd.symm), Option.map_some, Num.scale_zero, recv_zero, Num.add_zero']
        · rw [if_neg hd]
          show ∃ s', (T.l2o.get (T.leftOf (B.ids.val k))).bind _ = some s' ∧ _
          rw [Arr.get_some (by rw [hT.l2o]; exact hl1)]
          obtain ⟨f', e1, e2, e3⟩ := row_add (nd := 3 + nt) (flux := F) (e := k)
            (s := -(T.elen.val (B.ids.val k)) / T.area.val (T.leftOf (B.ids.val k))) (f := a)
            (hT.range _ hl1 hw) hk (r2.trans hs.fluxes) (by rw [hal, hf])
          refine ⟨f', e1, by rw [e2, hal], ?_⟩
          intro o i hi
          rw [List.range_succ, List.foldl_append, ← hav o i hi, e3 o i hi, hF k hk hw i hi]
          show _ = (a.val ((3 + nt) * o + i)).add (tbEdgeTerm sv P nt T B u o i k)
          unfold tbEdgeTerm usedTracerFlux
          rw [if_pos (fun h => hd h.symm), hw]
          rfl
      · rw [if_neg hw]
        refine ⟨a, rfl, hal, ?_⟩
        intro o i hi
        rw [List.range_succ, List.foldl_append, ← hav o i hi]
        show _ = (a.val ((3 + nt) * o + i)).add (tbEdgeTerm sv P nt T B u o i k)
        unfold tbEdgeTerm recv
        rw [if_neg (fun h => hw h.1), Num.add_zero'])
  show ∃ s' f', (loopM (tbAddStep P nt T B L R F) B.ids.len f).map _ = _ ∧ _
  rw [a1]
  exact ⟨_, f', rfl, ⟨l2, c2, hs.sn, hs.cn, r2.trans hs.fluxes, hs.normals⟩, a2, a3, hF⟩

end RDy
