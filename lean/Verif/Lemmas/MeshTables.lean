import Verif.Model.MeshTables
import Mathlib.Tactic

/-! # Lemmas on the tables of the mesh -/

namespace RDy

/-- The edges among some points, in order, numbered from 0. -/
def edgesIn (P : Plex) (ps : List ℕ) : List ℤ := (ps.filter fun p => withinBounds p P.eS P.eE).map fun p : ℕ => (p : ℤ) - P.eS

/-- The points that are not edges, in order, numbered from `oS`. -/
def othersIn (P : Plex) (oS : ℕ) (ps : List ℕ) : List ℤ :=
  (ps.filter fun p => !withinBounds p P.eS P.eE).map fun p : ℕ => (p : ℤ) - oS

theorem readRow_congr (n n' : ℕ → ℕ) (ids ids' : ℕ → ℤ) (w i : ℕ) (hn : n' i = n i)
    (h : ∀ k < n i, ids' (i * w + k) = ids (i * w + k)) : readRow n' ids' w i = readRow n ids w i := by
  unfold readRow
  rw [hn]
  exact List.map_congr_left fun k hk => h k (List.mem_range.1 hk)

theorem readRow_push (n : ℕ → ℕ) (ids : ℕ → ℤ) (w i : ℕ) (x : ℤ) :
    readRow (Function.update n i (n i + 1)) (Function.update ids (i * w + n i) x) w i = readRow n ids w i ++ [x] := by
  unfold readRow
  rw [Function.update_self, List.range_succ, List.map_append]
  congr 1
  · refine List.map_congr_left fun k hk => ?_
    have := List.mem_range.1 hk
    rw [Function.update_of_ne (by omega)]
  · simp

/-- What the loop over the points of a row does. -/
structure RowFilled (P : Plex) (z : TabSize) (oS i : ℕ) (t t' : AdjTab) (ps : List ℕ) : Prop where
  edges : readRow t'.nE t'.eIds z.wE i = readRow t.nE t.eIds z.wE i ++ edgesIn P ps
  others : readRow t'.nO t'.oIds z.wO i = readRow t.nO t.oIds z.wO i ++ othersIn P oS ps
  nE : t'.nE i = t.nE i + (edgesIn P ps).length
  nO : t'.nO i = t.nO i + (othersIn P oS ps).length
  nE_ne : ∀ j, j ≠ i → t'.nE j = t.nE j
  nO_ne : ∀ j, j ≠ i → t'.nO j = t.nO j
  eIds : ∀ m, m < i * z.wE → t'.eIds m = t.eIds m
  oIds : ∀ m, m < i * z.wO → t'.oIds m = t.oIds m

theorem fillPoints_spec (P : Plex) (z : TabSize) (oS i : ℕ) (hi : i < z.rows) (ps : List ℕ) (t : AdjTab)
    (hE : t.nE i + (edgesIn P ps).length ≤ z.wE) (hO : t.nO i + (othersIn P oS ps).length ≤ z.wO) :
    ∃ t', fillPoints P z oS i t ps = some t' ∧ RowFilled P z oS i t t' ps := by
  induction ps generalizing t with
  | nil =>
    exact ⟨t, rfl, ⟨by simp [edgesIn], by simp [othersIn], by simp [edgesIn], by simp [othersIn], fun _ _ => rfl,
      fun _ _ => rfl, fun _ _ => rfl, fun _ _ => rfl⟩⟩
  | cons p ps ih =>
    have hrow : ∀ w n, n < w → i * w + n < z.rows * w := by
      intro w n hn
      calc i * w + n < i * w + w := by omega
        _ = (i + 1) * w := by ring
        _ ≤ z.rows * w := Nat.mul_le_mul_right _ hi
    by_cases hp : withinBounds p P.eS P.eE = true
    · have e1 : edgesIn P (p :: ps) = ((p : ℤ) - P.eS) :: edgesIn P ps := by simp [edgesIn, hp]
      have e2 : othersIn P oS (p :: ps) = othersIn P oS ps := by simp [othersIn, hp]
      rw [e1, List.length_cons] at hE
      rw [e2] at hO
      obtain ⟨t', ht', g⟩ := ih { t with eIds := Function.update t.eIds (i * z.wE + t.nE i) ((p : ℤ) - P.eS), nE := Function.update t.nE i (t.nE i + 1) }
        (by dsimp only; rw [Function.update_self]; omega) hO
      refine ⟨t', ?_, ?_⟩
      · unfold fillPoints fillPoint
        rw [if_pos hp, if_pos (hrow _ _ (by omega))]
        exact ht'
      · refine ⟨?_, ?_, ?_, ?_, ?_, g.nO_ne, ?_, g.oIds⟩
        · rw [g.edges, e1, readRow_push, List.append_assoc]; rfl
        · rw [g.others, e2]
        · rw [g.nE, e1, List.length_cons]; dsimp only; rw [Function.update_self]; omega
        · rw [g.nO, e2]
        · intro j hj
          rw [g.nE_ne j hj]; dsimp only; rw [Function.update_of_ne hj]
        · intro m hm
          rw [g.eIds m hm]; dsimp only; rw [Function.update_of_ne (by omega)]
    · have e1 : edgesIn P (p :: ps) = edgesIn P ps := by simp [edgesIn, hp]
      have e2 : othersIn P oS (p :: ps) = ((p : ℤ) - oS) :: othersIn P oS ps := by simp [othersIn, hp]
      rw [e1] at hE
      rw [e2, List.length_cons] at hO
      obtain ⟨t', ht', g⟩ := ih { t with oIds := Function.update t.oIds (i * z.wO + t.nO i) ((p : ℤ) - oS), nO := Function.update t.nO i (t.nO i + 1) }
        hE (by dsimp only; rw [Function.update_self]; omega)
      refine ⟨t', ?_, ?_⟩
      · unfold fillPoints fillPoint
        rw [if_neg hp, if_pos (hrow _ _ (by omega))]
        exact ht'
      · refine ⟨?_, ?_, ?_, ?_, g.nE_ne, ?_, g.eIds, ?_⟩
        · rw [g.edges, e1]
        · rw [g.others, e2, readRow_push, List.append_assoc]; rfl
        · rw [g.nE, e1]
        · rw [g.nO, e2, List.length_cons]; dsimp only; rw [Function.update_self]; omega
        · intro j hj
          rw [g.nO_ne j hj]; dsimp only; rw [Function.update_of_ne hj]
        · intro m hm
          rw [g.oIds m hm]; dsimp only; rw [Function.update_of_ne (by omega)]

/-- All rows: every row holds what it should, if the blocks are wide enough. -/
theorem fillRows_spec (P : Plex) (z : TabSize) (oS : ℕ) (pts : ℕ → List ℕ) (k : ℕ) (hk : k ≤ z.rows)
    (hw : ∀ i < k, (edgesIn P (pts i)).length ≤ z.wE ∧ (othersIn P oS (pts i)).length ≤ z.wO) :
    ∃ t, fillRows P z oS pts k = some t ∧
      (∀ i < k, readRow t.nE t.eIds z.wE i = edgesIn P (pts i) ∧ readRow t.nO t.oIds z.wO i = othersIn P oS (pts i)) ∧
      (∀ i, k ≤ i → t.nE i = 0 ∧ t.nO i = 0) := by
  induction k with
  | zero => exact ⟨AdjTab.init, rfl, fun i h => absurd h (Nat.not_lt_zero i), fun i _ => ⟨rfl, rfl⟩⟩
  | succ k ih =>
    obtain ⟨t, ht, h1, h2⟩ := ih (by omega) (fun i hi => hw i (by omega))
    obtain ⟨g1, g2⟩ := h2 k (le_refl k)
    obtain ⟨t', ht', g⟩ := fillPoints_spec P z oS k (by omega) (pts k) t (by rw [g1, zero_add]; exact (hw k (by omega)).1)
      (by rw [g2, zero_add]; exact (hw k (by omega)).2)
    refine ⟨t', by rw [fillRows, ht]; exact ht', ?_, ?_⟩
    · intro i hi
      rcases Nat.lt_succ_iff_lt_or_eq.1 hi with hi | rfl
      · obtain ⟨a, b⟩ := h1 i hi
        have len : ∀ (n : ℕ → ℕ) (ids : ℕ → ℤ) (w : ℕ), (readRow n ids w i).length = n i := by
          intro n ids w; simp [readRow]
        have hne : t.nE i ≤ z.wE := by rw [← len t.nE t.eIds z.wE, a]; exact (hw i (by omega)).1
        have hno : t.nO i ≤ z.wO := by rw [← len t.nO t.oIds z.wO, b]; exact (hw i (by omega)).2
        have below : ∀ w n, n < w → i * w + n < k * w := by
          intro w n hn
          calc i * w + n < i * w + w := by omega
            _ = (i + 1) * w := by ring
            _ ≤ k * w := Nat.mul_le_mul_right _ hi
        rw [← a, ← b]
        constructor
        · exact readRow_congr _ _ _ _ _ _ (g.nE_ne i (by omega)) fun m hm => g.eIds _ (below _ _ (by omega))
        · exact readRow_congr _ _ _ _ _ _ (g.nO_ne i (by omega)) fun m hm => g.oIds _ (below _ _ (by omega))
      · rw [g.edges, g.others]
        have n1 : readRow t.nE t.eIds z.wE i = [] := by simp [readRow, g1]
        have n2 : readRow t.nO t.oIds z.wO i = [] := by simp [readRow, g2]
        rw [n1, n2]
        exact ⟨rfl, rfl⟩
    · intro i hi
      rw [g.nE_ne i (by omega), g.nO_ne i (by omega)]
      exact h2 i (by omega)

theorem countPoints_aux (P : Plex) (oS : ℕ) (ps : List ℕ) (n : ℕ × ℕ) :
    ps.foldl (fun n p => if withinBounds p P.eS P.eE then (n.1 + 1, n.2) else (n.1, n.2 + 1)) n =
      (n.1 + (edgesIn P ps).length, n.2 + (othersIn P oS ps).length) := by
  induction ps generalizing n with
  | nil => simp [edgesIn, othersIn]
  | cons p ps ih =>
    rw [List.foldl_cons, ih]
    by_cases hp : withinBounds p P.eS P.eE = true
    · simp [edgesIn, othersIn, hp]; omega
    · simp [edgesIn, othersIn, hp]; omega

theorem countPoints_eq (P : Plex) (oS : ℕ) (ps : List ℕ) :
    countPoints P ps = ((edgesIn P ps).length, (othersIn P oS ps).length) := by
  unfold countPoints
  rw [countPoints_aux P oS]; simp

theorem le_localMax (P : Plex) (oS : ℕ) (pts : ℕ → List ℕ) (k i : ℕ) (h : i < k) :
    (edgesIn P (pts i)).length ≤ (localMax P pts k).1 ∧ (othersIn P oS (pts i)).length ≤ (localMax P pts k).2 := by
  induction k with
  | zero => exact absurd h (Nat.not_lt_zero i)
  | succ k ih =>
    unfold localMax
    rw [countPoints_eq P oS]
    dsimp only
    rcases Nat.lt_succ_iff_lt_or_eq.1 h with h | rfl
    · exact ⟨le_trans (ih h).1 (le_max_left _ _), le_trans (ih h).2 (le_max_left _ _)⟩
    · exact ⟨le_max_right _ _, le_max_right _ _⟩

theorem le_maxAttributes (Ps : List Plex) (P : Plex) (h : P ∈ Ps) :
    ((localMax P P.cellPts (P.cE - P.cS)).1 ≤ (maxAttributes Ps).1.1 ∧
      (localMax P P.cellPts (P.cE - P.cS)).2 ≤ (maxAttributes Ps).1.2) ∧
    ((localMax P P.vertexPts (P.vE - P.vS)).1 ≤ (maxAttributes Ps).2.1 ∧
      (localMax P P.vertexPts (P.vE - P.vS)).2 ≤ (maxAttributes Ps).2.2) := by
  unfold maxAttributes
  generalize hf : (fun (m : (ℕ × ℕ) × (ℕ × ℕ)) (P : Plex) =>
    ((max m.1.1 (localMax P P.cellPts (P.cE - P.cS)).1, max m.1.2 (localMax P P.cellPts (P.cE - P.cS)).2),
      (max m.2.1 (localMax P P.vertexPts (P.vE - P.vS)).1, max m.2.2 (localMax P P.vertexPts (P.vE - P.vS)).2))) = f
  have mono : ∀ (l : List Plex) m, (m.1.1 ≤ (l.foldl f m).1.1 ∧ m.1.2 ≤ (l.foldl f m).1.2) ∧
      (m.2.1 ≤ (l.foldl f m).2.1 ∧ m.2.2 ≤ (l.foldl f m).2.2) := by
    intro l
    induction l with
    | nil => intro m; exact ⟨⟨le_refl _, le_refl _⟩, ⟨le_refl _, le_refl _⟩⟩
    | cons Q l ih =>
      intro m
      obtain ⟨⟨a, b⟩, ⟨c, d⟩⟩ := ih (f m Q)
      have e : f m Q = ((max m.1.1 (localMax Q Q.cellPts (Q.cE - Q.cS)).1, max m.1.2 (localMax Q Q.cellPts (Q.cE - Q.cS)).2),
        (max m.2.1 (localMax Q Q.vertexPts (Q.vE - Q.vS)).1, max m.2.2 (localMax Q Q.vertexPts (Q.vE - Q.vS)).2)) := by
        rw [← hf]
      rw [List.foldl_cons]
      rw [e] at a b c d ⊢
      exact ⟨⟨le_trans (le_max_left _ _) a, le_trans (le_max_left _ _) b⟩,
        ⟨le_trans (le_max_left _ _) c, le_trans (le_max_left _ _) d⟩⟩
  have key : ∀ (l : List Plex) m, P ∈ l → ((localMax P P.cellPts (P.cE - P.cS)).1 ≤ (l.foldl f m).1.1 ∧
      (localMax P P.cellPts (P.cE - P.cS)).2 ≤ (l.foldl f m).1.2) ∧
      ((localMax P P.vertexPts (P.vE - P.vS)).1 ≤ (l.foldl f m).2.1 ∧
      (localMax P P.vertexPts (P.vE - P.vS)).2 ≤ (l.foldl f m).2.2) := by
    intro l
    induction l with
    | nil => intro m h; exact absurd h (by simp)
    | cons Q l ih =>
      intro m h
      rw [List.foldl_cons]
      rcases List.mem_cons.1 h with rfl | h
      · obtain ⟨⟨a, b⟩, ⟨c, d⟩⟩ := mono l (f m P)
        have e : f m P = ((max m.1.1 (localMax P P.cellPts (P.cE - P.cS)).1, max m.1.2 (localMax P P.cellPts (P.cE - P.cS)).2),
          (max m.2.1 (localMax P P.vertexPts (P.vE - P.vS)).1, max m.2.2 (localMax P P.vertexPts (P.vE - P.vS)).2)) := by
          rw [← hf]
        rw [e] at a b c d ⊢
        exact ⟨⟨le_trans (le_max_right _ _) a, le_trans (le_max_right _ _) b⟩,
          ⟨le_trans (le_max_right _ _) c, le_trans (le_max_right _ _) d⟩⟩
      · exact ih _ h
  exact key Ps _ h

/-- A strictly increasing list of `N` numbers below `N` is `0, 1, …, N - 1`. -/
theorem sorted_eq_range (l : List ℕ) (N : ℕ) (hs : l.Pairwise (· < ·)) (hl : l.length = N) (hb : ∀ x ∈ l, x < N) :
    l = List.range N := by
  have hp : l.Perm (List.range N) := by
    have hsub : l.toFinset = (List.range N).toFinset := by
      apply Finset.eq_of_subset_of_card_le
      · intro x hx
        simpa using hb x (by simpa using hx)
      · rw [List.toFinset_card_of_nodup (hs.imp fun h => ne_of_lt h), List.toFinset_card_of_nodup List.nodup_range, hl]
        simp
    exact (List.perm_ext_iff_of_nodup (hs.imp fun h => ne_of_lt h) List.nodup_range).2 fun a => by
      rw [← List.mem_toFinset, hsub, List.mem_toFinset]
  exact hp.eq_of_pairwise (le := (· < ·)) (fun a b _ _ h1 h2 => absurd h1 (lt_asymm h2)) hs List.pairwise_lt_range

theorem find_identity (sf : MigrationSF) (N : ℕ) (h : ∀ l, sf.leaves = some l → l = List.range N) (v : ℕ) (hv : v < N) :
    sf.find v = some v := by
  unfold MigrationSF.find
  rcases hl : sf.leaves with _ | l
  · rfl
  · have := h l hl
    subst this
    dsimp only
    rw [if_pos (List.mem_range.2 hv)]
    congr 1
    have hi := List.nodup_range.idxOf_getElem (xs := List.range N) v (by simpa using hv)
    simpa using hi

/-- The value of `min_vertex_idx` before vertex `v`. -/
def MinSoFar (root : ℕ → ℕ) (vS v : ℕ) (o : Option ℕ) : Prop :=
  (vS < v → ∃ m, o = some m ∧ (∀ w, vS ≤ w → w < v → m ≤ root w) ∧ ∃ w, vS ≤ w ∧ w < v ∧ m = root w) ∧
    (vS = v → o = none)

/-- The loop visits the vertices in order. -/
theorem migrationLoop_spec (sf : MigrationSF) (N vS vE : ℕ) (h : ∀ l, sf.leaves = some l → l = List.range N)
    (hE : vE ≤ N) (fuel v : ℕ) (hv : vS ≤ v) (hf : vE - v ≤ fuel) (s : (ℕ → ℤ) × Option ℕ)
    (root : ℕ → ℕ) (hroot : ∀ p < N, (sf.roots[p]?).map Prod.snd = some (root p))
    (h1 : ∀ w, vS ≤ w → w < v → s.1 (w - vS) = root w)
    (h2 : MinSoFar root vS v s.2) (hvE : v ≤ vE) :
    ∃ t, migrationLoop sf vS vE fuel v s = some t ∧ (∀ w, vS ≤ w → w < vE → t.1 (w - vS) = root w) ∧
      MinSoFar root vS vE t.2 := by
  induction fuel generalizing v s with
  | zero =>
    have e : v = vE := by omega
    subst e
    exact ⟨s, by unfold migrationLoop; rw [if_neg (lt_irrefl _)], h1, h2⟩
  | succ fuel ih =>
    by_cases hlt : v < vE
    · unfold migrationLoop
      rw [if_pos hlt, find_identity sf N h v (by omega), Option.bind_some]
      obtain ⟨r, hr, hr'⟩ := Option.map_eq_some_iff.1 (hroot v (by omega))
      rw [hr]
      dsimp only
      refine ih (v + 1) (by omega) (by omega) _ ?_ ?_ (by omega)
      · intro w hw hwv
        dsimp only
        by_cases e : w = v
        · subst e; rw [Function.update_self, hr']
        · rw [Function.update_of_ne (by omega)]; exact h1 w hw (by omega)
      · refine ⟨?_, fun g => absurd g (by omega)⟩
        intro _
        dsimp only
        by_cases e : v = vS
        · rw [if_pos e]
          refine ⟨r.2, rfl, ?_, v, hv, by omega, hr'⟩
          intro w hw hwv
          have : w = v := by omega
          subst this; rw [hr']
        · rw [if_neg e]
          obtain ⟨m, hm, hle, w, hw, hwv, hmw⟩ := h2.1 (by omega)
          refine ⟨min m r.2, by rw [hm]; rfl, ?_, ?_⟩
          · intro w hw hwv
            by_cases e' : w = v
            · subst e'; rw [← hr']; exact min_le_right _ _
            · exact le_trans (min_le_left _ _) (hle w hw (by omega))
          · rcases le_total m r.2 with hc | hc
            · exact ⟨w, hw, by omega, by rw [min_eq_left hc, hmw]⟩
            · exact ⟨v, hv, by omega, by rw [min_eq_right hc, hr']⟩
    · have e : v = vE := by omega
      subst e
      exact ⟨s, by unfold migrationLoop; rw [if_neg hlt], h1, h2⟩

theorem reduceMin_some (l : List ℕ) (h : l ≠ []) :
    ∃ m, reduceMin (l.map some) = some m ∧ (∀ x ∈ l, m ≤ x) ∧ m ∈ l := by
  induction l with
  | nil => exact absurd rfl h
  | cons a l ih =>
    rcases l with _ | ⟨b, l⟩
    · exact ⟨a, rfl, by simp, by simp⟩
    · obtain ⟨m, hm, h1, h2⟩ := ih (by simp)
      refine ⟨min a m, ?_, ?_, ?_⟩
      · show (match some a, reduceMin ((b :: l).map some) with
          | some a, some b => some (min a b)
          | _, _ => none) = _
        rw [hm]
      · intro x hx
        rcases List.mem_cons.1 hx with rfl | hx
        · exact min_le_left _ _
        · exact le_trans (min_le_right _ _) (h1 x hx)
      · rcases le_total a m with hc | hc
        · rw [min_eq_left hc]; simp
        · rw [min_eq_right hc]; exact List.mem_cons_of_mem _ h2

/-- One process that has assigned no value spoils the reduction. -/
theorem reduceMin_none (l : List (Option ℕ)) (h : none ∈ l) : reduceMin l = none := by
  induction l with
  | nil => rfl
  | cons a l ih =>
    rcases l with _ | ⟨b, l⟩
    · rw [List.mem_singleton] at h; subst h; rfl
    · unfold reduceMin
      rcases List.mem_cons.1 h with rfl | h
      · rfl
      · rw [ih h]
        rcases a with _ | a <;> rfl

/-- Inserting values that agree with `x` wherever they are put. -/
theorem insertCoords_spec {α : Type} (size : ℕ) (x : ℕ → α) (ps : List (ℤ × α)) (f : ℕ → Option α)
    (hf : ∀ k a, f k = some a → a = x k) (hb : ∀ q ∈ ps, 0 ≤ q.1 ∧ q.1 < (size : ℤ)) (hx : ∀ q ∈ ps, q.2 = x q.1.toNat) :
    ∃ g, insertCoords size f ps = some g ∧ (∀ k a, g k = some a → a = x k) ∧ (∀ q ∈ ps, g q.1.toNat = some (x q.1.toNat)) ∧
      (∀ k, f k = some (x k) → g k = some (x k)) := by
  induction ps generalizing f with
  | nil => exact ⟨f, rfl, hf, by simp, fun _ h => h⟩
  | cons q ps ih =>
    obtain ⟨hq0, hq1⟩ := hb q (by simp)
    have hqx := hx q (by simp)
    obtain ⟨g, hg, h1, h2, h3⟩ := ih (Function.update f q.1.toNat (some q.2)) (by
        intro k a hk
        by_cases e : k = q.1.toNat
        · subst e; rw [Function.update_self, Option.some.injEq] at hk; rw [← hk, hqx]
        · rw [Function.update_of_ne e] at hk; exact hf k a hk)
      (fun r hr => hb r (by simp [hr])) (fun r hr => hx r (by simp [hr]))
    refine ⟨g, ?_, h1, ?_, ?_⟩
    · rw [insertCoords, if_pos hq1, if_pos hq0]
      exact hg
    · intro r hr
      rcases List.mem_cons.1 hr with rfl | hr
      · exact h3 _ (by rw [Function.update_self, hqx])
      · exact h2 r hr
    · intro k hk
      apply h3
      by_cases e : k = q.1.toNat
      · subst e; rw [Function.update_self, hqx]
      · rw [Function.update_of_ne e]; exact hk

theorem coordVector_spec {α : Type} (size : ℕ) (x : ℕ → α) (procs : List (List (ℤ × α)))
    (hb : ∀ ps ∈ procs, ∀ q ∈ ps, 0 ≤ q.1 ∧ q.1 < (size : ℤ)) (hx : ∀ ps ∈ procs, ∀ q ∈ ps, q.2 = x q.1.toNat) :
    ∃ g, coordVector size procs = some g ∧ (∀ k a, g k = some a → a = x k) ∧
      (∀ ps ∈ procs, ∀ q ∈ ps, g q.1.toNat = some (x q.1.toNat)) := by
  have key : ∀ (procs : List (List (ℤ × α))) (f : ℕ → Option α), (∀ k a, f k = some a → a = x k) →
      (∀ ps ∈ procs, ∀ q ∈ ps, 0 ≤ q.1 ∧ q.1 < (size : ℤ)) → (∀ ps ∈ procs, ∀ q ∈ ps, q.2 = x q.1.toNat) →
      ∃ g, procs.foldlM (insertCoords size) f = some g ∧ (∀ k a, g k = some a → a = x k) ∧
        (∀ ps ∈ procs, ∀ q ∈ ps, g q.1.toNat = some (x q.1.toNat)) ∧ (∀ k, f k = some (x k) → g k = some (x k)) := by
    intro procs
    induction procs with
    | nil => intro f hf _ _; exact ⟨f, rfl, hf, by simp, fun _ h => h⟩
    | cons ps procs ih =>
      intro f hf hb hx
      obtain ⟨g, hg, h1, h2, h3⟩ := insertCoords_spec size x ps f hf (hb ps (by simp)) (hx ps (by simp))
      obtain ⟨g', hg', h1', h2', h3'⟩ := ih g h1 (fun r hr => hb r (by simp [hr])) (fun r hr => hx r (by simp [hr]))
      refine ⟨g', ?_, h1', ?_, fun k hk => h3' k (h3 k hk)⟩
      · rw [List.foldlM_cons, hg]; exact hg'
      · intro r hr q hq
        rcases List.mem_cons.1 hr with rfl | hr
        · exact h3' _ (h2 q hq)
        · exact h2' r hr q hq
  obtain ⟨g, h1, h2, h3, -⟩ := key procs (fun _ => none) (by simp) hb hx
  exact ⟨g, h1, h2, h3⟩

end RDy
