import Verif.Model.Batched
import Mathlib.Tactic

/-! Lemmas about arrays, loops over them, and the batched flux operators. -/

namespace RDy

theorem Num.add_zero' (a : Num) : a.add (some 0) = a := by
  cases a <;> simp [Num.add]

theorem Num.some_add (x y : ℝ) : Num.add (some x) (some y) = some (x + y) := rfl

theorem Num.scale_some (x s : ℝ) : Num.scale (some x) s = some (x * s) := rfl

theorem Arr.get_some {α : Type} {a : Arr α} {i : ℕ} (h : i < a.len) : a.get i = some (a.val i) := if_pos h

theorem Arr.put_some {α : Type} {a : Arr α} {i : ℕ} (x : α) (h : i < a.len) :
    a.put i x = some ⟨a.len, Function.update a.val i x⟩ := if_pos h

theorem asIndex_some {z : ℤ} (h : 0 ≤ z) : asIndex z = some z.toNat := if_pos h

/-- invariants of loops -/
theorem loopM_inv {σ : Type} {step : σ → ℕ → Option σ} {n : ℕ} (I : ℕ → σ → Prop) {s : σ} (h0 : I 0 s)
    (hs : ∀ k < n, ∀ s, I k s → ∃ s', step s k = some s' ∧ I (k + 1) s') :
    ∃ s', loopM step n s = some s' ∧ I n s' := by
  induction n with
  | zero => exact ⟨s, rfl, h0⟩
  | succ n ih =>
    obtain ⟨s1, e1, i1⟩ := ih fun k hk s hi => hs k (by omega) s hi
    obtain ⟨s2, e2, i2⟩ := hs n (by omega) s1 i1
    refine ⟨s2, ?_, i2⟩
    show (loopM step n s).bind _ = _
    rw [e1]; exact e2

/-- the array whose first `k` entries are changed by `φ` -/
def Arr.upto {α : Type} (k : ℕ) (φ : ℕ → α → α) (a : Arr α) : Arr α :=
  ⟨a.len, fun e => if e < k then φ e (a.val e) else a.val e⟩

theorem Arr.upto_zero {α : Type} (φ : ℕ → α → α) (a : Arr α) : a.upto 0 φ = a := by
  cases a; simp [Arr.upto]

theorem Arr.upto_val_self {α : Type} (k : ℕ) (φ : ℕ → α → α) (a : Arr α) : (a.upto k φ).val k = a.val k := by
  simp [Arr.upto]

theorem Arr.upto_put {α : Type} {k : ℕ} (φ : ℕ → α → α) {a : Arr α} (h : k < a.len) :
    (a.upto k φ).put k (φ k (a.val k)) = some (a.upto (k + 1) φ) := by
  rw [Arr.put_some _ (show k < (a.upto k φ).len from h)]
  simp only [Arr.upto, Option.some.injEq, Arr.mk.injEq, true_and]
  funext e
  rcases lt_trichotomy e k with he | he | he
  · rw [Function.update_of_ne (by omega), if_pos he, if_pos (by omega)]
  · subst he
    rw [Function.update_self, if_pos (by omega)]
  · rw [Function.update_of_ne (by omega), if_neg (by omega), if_neg (by omega)]

/-- a step that changes nothing at `k` -/
theorem Arr.upto_skip {α : Type} {k : ℕ} {φ : ℕ → α → α} {a : Arr α} (h : φ k (a.val k) = a.val k) :
    a.upto k φ = a.upto (k + 1) φ := by
  simp only [Arr.upto, Arr.mk.injEq, true_and]
  funext e
  rcases lt_trichotomy e k with he | he | he
  · rw [if_pos he, if_pos (by omega)]
  · subst he
    rw [if_neg (by omega), if_pos (by omega), h]
  · rw [if_neg (by omega), if_neg (by omega)]

theorem loop_upto {α : Type} {step : Arr α → ℕ → Option (Arr α)} (φ : ℕ → α → α) {a : Arr α} {n : ℕ}
    (hs : ∀ k < n, step (a.upto k φ) k = some (a.upto (k + 1) φ)) : loopM step n a = some (a.upto n φ) := by
  obtain ⟨s, e, i⟩ := loopM_inv (step := step) (n := n) (fun k s => s = a.upto k φ) (Arr.upto_zero φ a).symm
    (fun k hk s hi => by subst hi; exact ⟨_, hs k hk, rfl⟩)
  rw [e, i]

theorem flat_inj {nd o i o' i' : ℕ} (hi : i < nd) (hi' : i' < nd) :
    nd * o + i = nd * o' + i' ↔ o = o' ∧ i = i' := by
  constructor
  · intro h
    have h1 : (nd * o + i) / nd = (nd * o' + i') / nd := by rw [h]
    rw [Nat.mul_add_div (by omega), Nat.mul_add_div (by omega), Nat.div_eq_of_lt hi, Nat.div_eq_of_lt hi'] at h1
    have h2 : o = o' := by simpa using h1
    subst h2
    exact ⟨rfl, by omega⟩
  · rintro ⟨rfl, rfl⟩; rfl

theorem flat_lt {nd o i n : ℕ} (ho : o < n) (hi : i < nd) : nd * o + i < nd * n := by
  have : nd * (o + 1) ≤ nd * n := Nat.mul_le_mul_left _ ho
  rw [Nat.mul_add] at this
  omega

/-- writing one row of a flat array -/
theorem row_put {nd : ℕ} (G : ℕ → Num) {f : Arr Num} {e n : ℕ} (he : e < n) (hl : f.len = nd * n) :
    ∃ f', loopM (fun (f : Arr Num) (d : ℕ) => f.put (nd * e + d) (G d)) nd f = some f' ∧ f'.len = f.len ∧
      ∀ o i, i < nd → f'.val (nd * o + i) = if o = e then G i else f.val (nd * o + i) := by
  obtain ⟨f', h1, h2, h3⟩ := loopM_inv (step := fun (f : Arr Num) (d : ℕ) => f.put (nd * e + d) (G d)) (n := nd) (s := f)
    (fun k s => s.len = f.len ∧ ∀ o i, i < nd → s.val (nd * o + i) =
      if o = e ∧ i < k then G i else f.val (nd * o + i)) ⟨rfl, by intro o i _; simp⟩ (by
      rintro k hk s ⟨hsl, hsv⟩
      have hin : nd * e + k < s.len := by rw [hsl, hl]; exact flat_lt he hk
      refine ⟨_, Arr.put_some _ hin, hsl, ?_⟩
      intro o i hi
      show Function.update s.val (nd * e + k) (G k) (nd * o + i) = _
      by_cases h : o = e ∧ i = k
      · obtain ⟨rfl, rfl⟩ := h
        rw [Function.update_self, if_pos ⟨rfl, by omega⟩]
      · rw [Function.update_of_ne (by rw [Ne, flat_inj hi hk]; exact h), hsv o i hi]
        by_cases h2 : o = e ∧ i < k
        · rw [if_pos h2, if_pos ⟨h2.1, by omega⟩]
        · rw [if_neg h2, if_neg]
          rintro ⟨ho, hik⟩
          have : i ≠ k := fun hh => h ⟨ho, hh⟩
          exact h2 ⟨ho, by omega⟩)
  refine ⟨f', h1, h2, fun o i hi => ?_⟩
  rw [h3 o i hi]
  by_cases h : o = e
  · rw [if_pos ⟨h, hi⟩, if_pos h]
  · rw [if_neg (fun hh => h hh.1), if_neg h]

/-- what one cell receives at entry `(o, i)`; `w` says whether it is owned and `o'` is its number -/
def recv (w : Bool) (o' o : ℕ) (x : Num) : Num := if w = true ∧ o' = o then x else some 0

theorem addIfOwned_spec {nd : ℕ} {T : Tables} {flux : Arr Num} {e c : ℕ} {s : ℝ} {i n m nc : ℕ} {f : Arr Num}
    (hc : c < nc) (how : T.owned.len = nc) (hl : T.l2o.len = nc) (ho : T.owned.val c = true → T.l2o.val c < n)
    (hf : f.len = nd * n) (hx : flux.len = nd * m) (he : e < m) (hi : i < nd) :
    ∃ f', addIfOwned nd T flux e c s i f = some f' ∧ f'.len = f.len ∧
      ∀ o i', i' < nd → f'.val (nd * o + i') = if i' = i then (f.val (nd * o + i)).add
        (recv (T.owned.val c) (T.l2o.val c) o ((flux.val (nd * e + i)).scale s)) else f.val (nd * o + i') := by
  unfold addIfOwned
  rw [Arr.get_some (by omega)]
  show ∃ f', (if T.owned.val c = true then _ else _) = some f' ∧ _
  by_cases hw : T.owned.val c = true
  · rw [if_pos hw, Arr.get_some (by omega)]
    have hin : nd * T.l2o.val c + i < f.len := by rw [hf]; exact flat_lt (ho hw) hi
    have hin' : nd * e + i < flux.len := by rw [hx]; exact flat_lt he hi
    refine ⟨⟨f.len, Function.update f.val (nd * T.l2o.val c + i)
      ((f.val (nd * T.l2o.val c + i)).add ((flux.val (nd * e + i)).scale s))⟩, ?_, rfl, ?_⟩
    · show addEntry nd flux e (T.l2o.val c) s i f = _
      unfold addEntry
      rw [Arr.get_some hin]
      show (flux.get (nd * e + i)).bind _ = _
      rw [Arr.get_some hin']
      exact Arr.put_some _ hin
    · intro o i' hi'
      show Function.update f.val _ _ _ = _
      by_cases h : o = T.l2o.val c ∧ i' = i
      · obtain ⟨rfl, rfl⟩ := h
        rw [Function.update_self, if_pos rfl]
        unfold recv
        rw [if_pos ⟨hw, rfl⟩]
      · rw [Function.update_of_ne (by rw [Ne, flat_inj hi' hi]; exact h)]
        by_cases h2 : i' = i
        · subst h2
          rw [if_pos rfl]
          unfold recv
          rw [if_neg (fun hh => h ⟨hh.2.symm, rfl⟩), Num.add_zero']
        · rw [if_neg h2]
  · rw [if_neg hw]
    refine ⟨f, rfl, rfl, ?_⟩
    intro o i' hi'
    by_cases h2 : i' = i
    · subst h2
      rw [if_pos rfl]
      unfold recv
      rw [if_neg (fun hh => hw hh.1), Num.add_zero']
    · rw [if_neg h2]

theorem addToCells_spec {nd : ℕ} {T : Tables} {flux : Arr Num} {e id l r n m nc : ℕ} {f : Arr Num}
    (hl : l < nc) (hr : r < nc) (how : T.owned.len = nc) (hlo : T.l2o.len = nc) (har : T.area.len = nc)
    (ho : ∀ c < nc, T.owned.val c = true → T.l2o.val c < n) (hid : id < T.elen.len)
    (hf : f.len = nd * n) (hx : flux.len = nd * m) (he : e < m) :
    ∃ f', addToCells nd T flux e id l r f = some f' ∧ f'.len = f.len ∧
      ∀ o i, i < nd → f'.val (nd * o + i) = ((f.val (nd * o + i)).add
        (recv (T.owned.val l) (T.l2o.val l) o
          ((flux.val (nd * e + i)).scale (-(T.elen.val id) / T.area.val l)))).add
        (recv (T.owned.val r) (T.l2o.val r) o
          ((flux.val (nd * e + i)).scale (T.elen.val id / T.area.val r))) := by
  unfold addToCells
  rw [Arr.get_some hid, Arr.get_some (by omega), Arr.get_some (by omega)]
  show ∃ f', loopM _ nd f = some f' ∧ _
  obtain ⟨f', h1, h2, h3⟩ := loopM_inv
    (step := fun (f : Arr Num) (i : ℕ) => (addIfOwned nd T flux e l (-(T.elen.val id) / T.area.val l) i f).bind
      (addIfOwned nd T flux e r (T.elen.val id / T.area.val r) i)) (n := nd) (s := f)
    (fun k s => s.len = f.len ∧ ∀ o i, i < nd → s.val (nd * o + i) = if i < k then
      ((f.val (nd * o + i)).add
        (recv (T.owned.val l) (T.l2o.val l) o
          ((flux.val (nd * e + i)).scale (-(T.elen.val id) / T.area.val l)))).add
        (recv (T.owned.val r) (T.l2o.val r) o
          ((flux.val (nd * e + i)).scale (T.elen.val id / T.area.val r)))
      else f.val (nd * o + i)) ⟨rfl, by intro o i _; simp⟩ (by
      rintro k hk s ⟨hsl, hsv⟩
      obtain ⟨a, ha1, ha2, ha3⟩ := addIfOwned_spec (s := -(T.elen.val id) / T.area.val l) (f := s) hl how hlo
        (ho l hl) (by rw [hsl, hf]) hx he hk
      obtain ⟨b, hb1, hb2, hb3⟩ := addIfOwned_spec (s := T.elen.val id / T.area.val r) (f := a) hr how hlo
        (ho r hr) (by rw [ha2, hsl, hf]) hx he hk
      refine ⟨b, ?_, by rw [hb2, ha2, hsl], ?_⟩
      · show Option.bind _ _ = _
        rw [ha1]; exact hb1
      · intro o i hi
        rw [hb3 o i hi]
        by_cases h : i = k
        · subst h
          rw [if_pos rfl, if_pos (by omega), ha3 o i hi, if_pos rfl, hsv o i hi, if_neg (by omega)]
        · rw [if_neg h, ha3 o i hi, if_neg h, hsv o i hi]
          by_cases h2 : i < k
          · rw [if_pos h2, if_pos (by omega)]
          · rw [if_neg h2, if_neg (by omega)])
  refine ⟨f', h1, h2, fun o i hi => ?_⟩
  rw [h3 o i hi, if_pos hi]

/-- the velocities of an entry -/
noncomputable def RState.withVelocities (tinyH hAnuga : ℝ) (s : RState) : RState :=
  if s.h < tinyH then { s with u := 0, v := 0 }
  else { s with u := s.hu * s.h / (s.h * s.h + hAnuga * hAnuga), v := s.hv * s.h / (s.h * s.h + hAnuga * hAnuga) }

theorem withVelocities_prim (tinyH hAnuga : ℝ) (s : RState) :
    (s.withVelocities tinyH hAnuga).prim = velocities tinyH hAnuga ⟨s.h, s.hu, s.hv⟩ := by
  unfold RState.withVelocities velocities
  by_cases h : s.h < tinyH
  · rw [if_pos h, if_pos h]; rfl
  · rw [if_neg h, if_neg h]; rfl

theorem withVelocities_h (tinyH hAnuga : ℝ) (s : RState) : (s.withVelocities tinyH hAnuga).h = s.h := by
  unfold RState.withVelocities
  split <;> rfl

theorem velocitiesB_eq (tinyH hAnuga : ℝ) (a : Arr RState) :
    velocitiesB tinyH hAnuga a = some (a.upto a.len fun _ s => s.withVelocities tinyH hAnuga) := by
  unfold velocitiesB
  refine loop_upto _ fun k hk => ?_
  unfold velocityStep
  rw [Arr.get_some (show k < (a.upto k _).len from hk), Arr.upto_val_self]
  show (if (a.val k).h < tinyH then _ else _) = _
  rw [← Arr.upto_put (fun _ s => s.withVelocities tinyH hAnuga) hk]
  unfold RState.withVelocities
  by_cases h : (a.val k).h < tinyH
  · rw [if_pos h, if_pos h]
  · rw [if_neg h, if_neg h]

/-- the entries of the array of fluxes after `ComputeSWERoeFlux` -/
theorem roeB_spec {g : ℝ} {L R : Arr RState} {sn cn : Arr ℝ} {fij : Arr Num} {n : ℕ} (hL : L.len = n) (hR : R.len = n)
    (hs : sn.len = n) (hc : cn.len = n) (hf : fij.len = 3 * n) :
    ∃ F, roeB g L R sn cn fij = some F ∧ F.len = fij.len ∧ ∀ e < n, ∀ i < 3, F.val (3 * e + i) =
      (roeFlux g (L.val e).prim (R.val e).prim (sn.val e) (cn.val e)).map fun F => F.1.comp i := by
  unfold roeB
  rw [hL]
  obtain ⟨F, h1, h2, h3⟩ := loopM_inv (step := roeStep g L R sn cn) (n := n) (s := fij)
    (fun k s => s.len = fij.len ∧ ∀ e < k, ∀ i < 3, s.val (3 * e + i) =
      (roeFlux g (L.val e).prim (R.val e).prim (sn.val e) (cn.val e)).map fun F => F.1.comp i)
    ⟨rfl, by intro e he; omega⟩ (by
      rintro k hk s ⟨hsl, hsv⟩
      obtain ⟨f', e1, e2, e3⟩ := row_put (nd := 3) (fun d => (roeFlux g (L.val k).prim (R.val k).prim (sn.val k)
        (cn.val k)).map fun F => F.1.comp d) (f := s) (e := k) (n := n) hk (by rw [hsl, hf])
      refine ⟨f', ?_, by rw [e2, hsl], ?_⟩
      · unfold roeStep
        rw [Arr.get_some (by omega), Arr.get_some (by omega), Arr.get_some (by omega), Arr.get_some (by omega)]
        exact e1
      · intro e he i hi
        rw [e3 e i hi]
        by_cases h : e = k
        · subst h; rw [if_pos rfl]
        · rw [if_neg h]; exact hsv e (by omega) i hi)
  exact ⟨F, h1, h2, h3⟩

/-! ### The interior operator -/

/-- What the mesh tables have to satisfy (`nc` local cells, `n` owned cells, `ne` edges): the arrays have the lengths of
`/repo/src/rdymesh.c`, the first cell of an edge exists, the second exists or is -1, owned numbers are in range. -/
structure Tables.Valid (T : Tables) (nc n ne : ℕ) : Prop where
  ids : ∀ e < T.internal.len, T.internal.val e < ne
  cellIds : T.cellIds.len = 2 * ne
  elen : T.elen.len = ne
  sn : T.sn.len = ne
  cn : T.cn.len = ne
  area : T.area.len = nc
  owned : T.owned.len = nc
  l2o : T.l2o.len = nc
  left : ∀ id < ne, 0 ≤ T.cellIds.val (2 * id) ∧ (T.cellIds.val (2 * id)).toNat < nc
  right : ∀ id < ne, T.cellIds.val (2 * id + 1) = -1 ∨
    0 ≤ T.cellIds.val (2 * id + 1) ∧ (T.cellIds.val (2 * id + 1)).toNat < nc
  range : ∀ c < nc, T.owned.val c = true → T.l2o.val c < n

/-- the first cell of an edge -/
def Tables.leftOf (T : Tables) (id : ℕ) : ℕ := (T.cellIds.val (2 * id)).toNat

/-- the second cell of an edge, if there is one -/
def Tables.rightOf (T : Tables) (id : ℕ) : Option ℕ :=
  if T.cellIds.val (2 * id + 1) = -1 then none else some (T.cellIds.val (2 * id + 1)).toNat

/-- the state of a cell in a vector of block size 3 -/
def stateAt (u : Arr ℝ) (c : ℕ) : Cons := ⟨u.val (3 * c), u.val (3 * c + 1), u.val (3 * c + 2)⟩

/-- The arrays of an operator for `n` edges have their lengths. -/
structure Batch.Sized (b : Batch) (n : ℕ) : Prop where
  left : b.left.len = n
  right : b.right.len = n
  sn : b.sn.len = n
  cn : b.cn.len = n
  flux : b.flux.len = 3 * n

/-- The arrays of normals hold those of the edges with two cells. -/
def Batch.HasNormals (b : Batch) (T : Tables) : Prop :=
  ∀ e < T.internal.len, (T.rightOf (T.internal.val e)).isSome = true →
    b.sn.val e = T.sn.val (T.internal.val e) ∧ b.cn.val e = T.cn.val (T.internal.val e)

theorem Batch.create_sized (n : ℕ) : (Batch.create n).Sized n :=
  ⟨rfl, rfl, rfl, rfl, Nat.mul_comm n 3⟩

theorem rightOf_some {T : Tables} {id : ℕ} (h : T.cellIds.val (2 * id + 1) ≠ -1) :
    T.rightOf id = some (T.cellIds.val (2 * id + 1)).toNat := if_neg h

theorem rightOf_none {T : Tables} {id : ℕ} (h : T.cellIds.val (2 * id + 1) = -1) : T.rightOf id = none := if_pos h

theorem createInteriorB_spec {T : Tables} {nc n ne : ℕ} (hT : T.Valid nc n ne) :
    ∃ b, createInteriorB T = some b ∧ b.Sized T.internal.len ∧ b.HasNormals T := by
  unfold createInteriorB
  obtain ⟨b, h1, h2, h3⟩ := loopM_inv (step := normalStep T) (n := T.internal.len) (s := Batch.create T.internal.len)
    (fun k b => b.Sized T.internal.len ∧ ∀ e < k, (T.rightOf (T.internal.val e)).isSome = true →
      b.sn.val e = T.sn.val (T.internal.val e) ∧ b.cn.val e = T.cn.val (T.internal.val e))
    ⟨Batch.create_sized _, by intro e he; omega⟩ (by
      rintro k hk b ⟨hb, hv⟩
      have hid := hT.ids k hk
      unfold normalStep
      rw [Arr.get_some hk]
      show ∃ s', (T.cellIds.get (2 * T.internal.val k + 1)).bind _ = some s' ∧ _
      rw [Arr.get_some (by rw [hT.cellIds]; omega)]
      show ∃ s', (if T.cellIds.val (2 * T.internal.val k + 1) ≠ -1 then _ else _) = some s' ∧ _
      by_cases hr : T.cellIds.val (2 * T.internal.val k + 1) = -1
      · rw [if_neg (not_not.mpr hr)]
        refine ⟨b, rfl, hb, ?_⟩
        intro e he hs
        by_cases h : e = k
        · subst h; rw [rightOf_none hr] at hs; exact absurd hs (by simp)
        · exact hv e (by omega) hs
      · rw [if_pos hr, Arr.get_some (by rw [hT.cn]; exact hid)]
        show ∃ s', (b.cn.put k _).bind _ = some s' ∧ _
        rw [Arr.put_some _ (by rw [hb.cn]; exact hk)]
        show ∃ s', (T.sn.get _).bind _ = some s' ∧ _
        rw [Arr.get_some (by rw [hT.sn]; exact hid)]
        show ∃ s', (b.sn.put k _).bind _ = some s' ∧ _
        rw [Arr.put_some _ (by rw [hb.sn]; exact hk)]
        refine ⟨_, rfl, ⟨hb.left, hb.right, hb.sn, hb.cn, hb.flux⟩, ?_⟩
        intro e he hs
        show Function.update b.sn.val k _ e = _ ∧ Function.update b.cn.val k _ e = _
        by_cases h : e = k
        · subst h; rw [Function.update_self, Function.update_self]; exact ⟨rfl, rfl⟩
        · rw [Function.update_of_ne h, Function.update_of_ne h]; exact hv e (by omega) hs)
  exact ⟨b, h1, h2, h3⟩

/-- an entry whose conserved part is replaced -/
def RState.withCons (s : RState) (q : Cons) : RState := ⟨q.h, q.hu, q.hv, s.u, s.v⟩

theorem putState_some {a : Arr RState} {e : ℕ} {u : Arr ℝ} {c nc : ℕ} (he : e < a.len) (hc : c < nc)
    (hu : u.len = 3 * nc) : putState 3 a e u c = a.put e ((a.val e).withCons (stateAt u c)) := by
  unfold putState
  rw [Arr.get_some (by omega), Arr.get_some (by omega), Arr.get_some (by omega)]
  show (a.get e).bind _ = _
  rw [Arr.get_some he]
  rfl

/-- the states of both sides of an edge after gathering, `none` for an edge without second cell -/
theorem gather_spec {T : Tables} {nc n ne : ℕ} (hT : T.Valid nc n ne) {u : Arr ℝ} (hu : u.len = 3 * nc) {b : Batch}
    (hb : b.Sized T.internal.len) :
    ∃ b', loopM (gatherStep T u) T.internal.len b = some b' ∧ b'.Sized T.internal.len ∧ b'.sn = b.sn ∧ b'.cn = b.cn ∧
      b'.flux = b.flux ∧ ∀ e < T.internal.len, ∀ r, T.rightOf (T.internal.val e) = some r →
        (∃ x y, b'.left.val e = (⟨0, 0, 0, x, y⟩ : RState).withCons (stateAt u (T.leftOf (T.internal.val e)))) ∧
        (∃ x y, b'.right.val e = (⟨0, 0, 0, x, y⟩ : RState).withCons (stateAt u r)) := by
  obtain ⟨b', h1, h2, h3⟩ := loopM_inv (step := gatherStep T u) (n := T.internal.len) (s := b)
    (fun k b' => (b'.Sized T.internal.len ∧ b'.sn = b.sn ∧ b'.cn = b.cn ∧ b'.flux = b.flux) ∧
      ∀ e < k, ∀ r, T.rightOf (T.internal.val e) = some r →
        (∃ x y, b'.left.val e = (⟨0, 0, 0, x, y⟩ : RState).withCons (stateAt u (T.leftOf (T.internal.val e)))) ∧
        (∃ x y, b'.right.val e = (⟨0, 0, 0, x, y⟩ : RState).withCons (stateAt u r)))
    ⟨⟨hb, rfl, rfl, rfl⟩, by intro e he; omega⟩ (by
      rintro k hk s ⟨⟨hs, hs1, hs2, hs3⟩, hv⟩
      have hid := hT.ids k hk
      unfold gatherStep
      rw [Arr.get_some hk]
      show ∃ s', (T.cellIds.get (2 * T.internal.val k)).bind _ = some s' ∧ _
      rw [Arr.get_some (by rw [hT.cellIds]; omega)]
      show ∃ s', (T.cellIds.get (2 * T.internal.val k + 1)).bind _ = some s' ∧ _
      rw [Arr.get_some (by rw [hT.cellIds]; omega)]
      show ∃ s', (if T.cellIds.val (2 * T.internal.val k + 1) ≠ -1 then _ else _) = some s' ∧ _
      by_cases hr : T.cellIds.val (2 * T.internal.val k + 1) = -1
      · rw [if_neg (not_not.mpr hr)]
        refine ⟨s, rfl, ⟨hs, hs1, hs2, hs3⟩, ?_⟩
        intro e he r hh
        by_cases h : e = k
        · subst h; rw [rightOf_none hr] at hh; exact absurd hh (by simp)
        · exact hv e (by omega) r hh
      · obtain ⟨hl0, hl1⟩ := hT.left _ hid
        obtain ⟨hr0, hr1⟩ := (hT.right _ hid).resolve_left hr
        rw [if_pos hr, asIndex_some hl0]
        show ∃ s', (asIndex (T.cellIds.val (2 * T.internal.val k + 1))).bind _ = some s' ∧ _
        rw [asIndex_some hr0]
        show ∃ s', (putState 3 s.left k u _).bind _ = some s' ∧ _
        rw [putState_some (by rw [hs.left]; exact hk) hl1 hu, Arr.put_some _ (by rw [hs.left]; exact hk)]
        show ∃ s', (putState 3 s.right k u _).bind _ = some s' ∧ _
        rw [putState_some (by rw [hs.right]; exact hk) hr1 hu, Arr.put_some _ (by rw [hs.right]; exact hk)]
        refine ⟨_, rfl, ⟨⟨hs.left, hs.right, hs.sn, hs.cn, hs.flux⟩, hs1, hs2, hs3⟩, ?_⟩
        intro e he r hh
        by_cases h : e = k
        · subst h
          rw [rightOf_some hr] at hh
          cases hh
          refine ⟨⟨_, _, Function.update_self ..⟩, ⟨_, _, Function.update_self ..⟩⟩
        · obtain ⟨⟨x, y, hx⟩, ⟨z, w, hz⟩⟩ := hv e (by omega) r hh
          exact ⟨⟨x, y, (Function.update_of_ne h ..).trans hx⟩, ⟨z, w, (Function.update_of_ne h ..).trans hz⟩⟩)
  exact ⟨b', h1, h2.1, h2.2.1, h2.2.2.1, h2.2.2.2, h3⟩

/-- what the edge `e` of the list of internal edges adds to entry `(o, i)`: the flux of its two cells' states, with the
sign of each side -/
noncomputable def edgeTerm (P : FlowParams) (T : Tables) (u : Arr ℝ) (o i e : ℕ) : Num :=
  match T.rightOf (T.internal.val e) with
  | none => some 0
  | some r =>
    (recv (T.owned.val (T.leftOf (T.internal.val e))) (T.l2o.val (T.leftOf (T.internal.val e))) o
      (Num.scale ((usedFlux P.g P.tinyH
        (velocities P.tinyH P.hAnuga (stateAt u (T.leftOf (T.internal.val e)))) (velocities P.tinyH P.hAnuga (stateAt u r))
        (T.sn.val (T.internal.val e)) (T.cn.val (T.internal.val e))).map fun F => F.comp i)
        (-(T.elen.val (T.internal.val e)) / T.area.val (T.leftOf (T.internal.val e))))).add
    (recv (T.owned.val r) (T.l2o.val r) o
      (Num.scale ((usedFlux P.g P.tinyH
        (velocities P.tinyH P.hAnuga (stateAt u (T.leftOf (T.internal.val e)))) (velocities P.tinyH P.hAnuga (stateAt u r))
        (T.sn.val (T.internal.val e)) (T.cn.val (T.internal.val e))).map fun F => F.comp i)
        (T.elen.val (T.internal.val e) / T.area.val r)))

theorem Num.add_assoc' (a b c : Num) : (a.add b).add c = a.add (b.add c) := by
  cases a <;> cases b <;> cases c <;> simp [Num.add, add_assoc]

theorem Num.scale_zero (s : ℝ) : Num.scale (some 0) s = some 0 := by simp [Num.scale]

theorem recv_zero (w : Bool) (o' o : ℕ) : recv w o' o (some 0) = some 0 := by
  unfold recv; split <;> rfl

theorem comp_zero (i : ℕ) : (⟨0, 0, 0⟩ : Flux).comp i = 0 := by
  unfold Flux.comp; split_ifs <;> rfl

theorem velocities_depth (tinyH hAnuga : ℝ) (q : Cons) : (velocities tinyH hAnuga q).h = q.h := by
  unfold velocities; split <;> rfl

/-- the loop that adds the fluxes -/
theorem add_spec {P : FlowParams} {T : Tables} {nc n ne : ℕ} (hT : T.Valid nc n ne) {u : Arr ℝ} {b : Batch}
    (hb : b.Sized T.internal.len)
    (hst : ∀ e < T.internal.len, ∀ r, T.rightOf (T.internal.val e) = some r →
      (b.left.val e).h = (stateAt u (T.leftOf (T.internal.val e))).h ∧ (b.right.val e).h = (stateAt u r).h ∧
      ∀ i < 3, b.flux.val (3 * e + i) = (roeFlux P.g
        (velocities P.tinyH P.hAnuga (stateAt u (T.leftOf (T.internal.val e)))) (velocities P.tinyH P.hAnuga (stateAt u r))
        (T.sn.val (T.internal.val e)) (T.cn.val (T.internal.val e))).map fun F => F.1.comp i)
    {f : Arr Num} (hf : f.len = 3 * n) :
    ∃ f', loopM (addStep P T b) T.internal.len f = some f' ∧ f'.len = f.len ∧ ∀ o i, i < 3 →
      f'.val (3 * o + i) = (List.range T.internal.len).foldl (fun (a : Num) (e : ℕ) => a.add (edgeTerm P T u o i e))
        (f.val (3 * o + i)) := by
  refine loopM_inv (step := addStep P T b) (n := T.internal.len) (s := f)
    (fun k s => s.len = f.len ∧ ∀ o i, i < 3 → s.val (3 * o + i) =
      (List.range k).foldl (fun (a : Num) (e : ℕ) => a.add (edgeTerm P T u o i e)) (f.val (3 * o + i)))
    ⟨rfl, by intro o i _; rfl⟩ ?_
  rintro k hk s ⟨hsl, hsv⟩
  have hid := hT.ids k hk
  unfold addStep
  rw [Arr.get_some hk]
  show ∃ s', (T.cellIds.get (2 * T.internal.val k)).bind _ = some s' ∧ _
  rw [Arr.get_some (by rw [hT.cellIds]; omega)]
  show ∃ s', (T.cellIds.get (2 * T.internal.val k + 1)).bind _ = some s' ∧ _
  rw [Arr.get_some (by rw [hT.cellIds]; omega)]
  show ∃ s', (if T.cellIds.val (2 * T.internal.val k + 1) ≠ -1 then _ else _) = some s' ∧ _
  by_cases hr : T.cellIds.val (2 * T.internal.val k + 1) = -1
  · rw [if_neg (not_not.mpr hr)]
    refine ⟨s, rfl, hsl, ?_⟩
    intro o i hi
    rw [List.range_succ, List.foldl_append, ← hsv o i hi]
    show _ = (s.val (3 * o + i)).add (edgeTerm P T u o i k)
    unfold edgeTerm
    rw [rightOf_none hr]
    exact (Num.add_zero' _).symm
  · obtain ⟨hl0, hl1⟩ := hT.left _ hid
    obtain ⟨hr0, hr1⟩ := (hT.right _ hid).resolve_left hr
    obtain ⟨hL, hR, hF⟩ := hst k hk _ (rightOf_some hr)
    rw [if_pos hr, asIndex_some hl0]
    show ∃ s', (asIndex (T.cellIds.val (2 * T.internal.val k + 1))).bind _ = some s' ∧ _
    rw [asIndex_some hr0]
    show ∃ s', (b.left.get k).bind _ = some s' ∧ _
    rw [Arr.get_some (by rw [hb.left]; exact hk)]
    show ∃ s', (b.right.get k).bind _ = some s' ∧ _
    rw [Arr.get_some (by rw [hb.right]; exact hk)]
    show ∃ s', (if (b.right.val k).h < P.tinyH ∧ (b.left.val k).h < P.tinyH then _ else _) = some s' ∧ _
    rw [hL, hR]
    by_cases hd : (stateAt u (T.cellIds.val (2 * T.internal.val k + 1)).toNat).h < P.tinyH ∧
        (stateAt u (T.leftOf (T.internal.val k))).h < P.tinyH
    · rw [if_pos hd]
      refine ⟨s, rfl, hsl, ?_⟩
      intro o i hi
      rw [List.range_succ, List.foldl_append, ← hsv o i hi]
      show _ = (s.val (3 * o + i)).add (edgeTerm P T u o i k)
      unfold edgeTerm usedFlux
      rw [rightOf_some hr]
      dsimp only
      rw [if_neg (by rw [velocities_depth, velocities_depth]; exact not_not.mpr hd), Option.map_some, comp_zero, Num.scale_zero,
        Num.scale_zero, recv_zero, recv_zero, Num.add_zero', Num.add_zero']
    · rw [if_neg hd]
      obtain ⟨f', e1, e2, e3⟩ := addToCells_spec (nd := 3) (flux := b.flux) (f := s) hl1 hr1 hT.owned hT.l2o hT.area
        hT.range (show T.internal.val k < T.elen.len by rw [hT.elen]; exact hid) (by rw [hsl, hf]) hb.flux hk
      refine ⟨f', e1, by rw [e2, hsl], ?_⟩
      intro o i hi
      rw [List.range_succ, List.foldl_append, ← hsv o i hi, e3 o i hi, hF i hi, Num.add_assoc']
      show _ = (s.val (3 * o + i)).add (edgeTerm P T u o i k)
      unfold edgeTerm usedFlux
      rw [rightOf_some hr]
      dsimp only
      rw [if_pos (by rw [velocities_depth, velocities_depth]; exact hd), Option.map_map]
      rfl

theorem upto_val_lt {α : Type} {k e : ℕ} {φ : ℕ → α → α} {a : Arr α} (h : e < k) :
    (a.upto k φ).val e = φ e (a.val e) := if_pos h

/-- The interior operator: no undefined access, and the result depends on the state only. -/
theorem applyInteriorB_spec {P : FlowParams} {T : Tables} {nc n ne : ℕ} (hT : T.Valid nc n ne) {u : Arr ℝ}
    (hu : u.len = 3 * nc) {b : Batch} (hb : b.Sized T.internal.len) (hn : b.HasNormals T) {f : Arr Num}
    (hf : f.len = 3 * n) :
    ∃ b' f', applyInteriorB P T b u f = some (b', f') ∧ b'.Sized T.internal.len ∧ b'.HasNormals T ∧ f'.len = f.len ∧
      ∀ o i, i < 3 → f'.val (3 * o + i) = (List.range T.internal.len).foldl
        (fun (a : Num) (e : ℕ) => a.add (edgeTerm P T u o i e)) (f.val (3 * o + i)) := by
  obtain ⟨b1, g1, g2, g3, g4, g5, g6⟩ := gather_spec hT hu hb
  unfold applyInteriorB
  rw [g1]
  show ∃ b' f', (velocitiesB P.tinyH P.hAnuga b1.left).bind _ = _ ∧ _
  rw [velocitiesB_eq]
  show ∃ b' f', (velocitiesB P.tinyH P.hAnuga b1.right).bind _ = _ ∧ _
  rw [velocitiesB_eq]
  obtain ⟨F, r1, r2, r3⟩ := roeB_spec (g := P.g) (L := b1.left.upto b1.left.len fun _ s => s.withVelocities P.tinyH P.hAnuga)
    (R := b1.right.upto b1.right.len fun _ s => s.withVelocities P.tinyH P.hAnuga) g2.left g2.right g2.sn g2.cn g2.flux
  show ∃ b' f', (roeB P.g _ _ b1.sn b1.cn b1.flux).bind _ = _ ∧ _
  rw [r1]
  have hsz : (⟨b1.left.upto b1.left.len fun _ s => s.withVelocities P.tinyH P.hAnuga,
      b1.right.upto b1.right.len fun _ s => s.withVelocities P.tinyH P.hAnuga, b1.sn, b1.cn, F⟩ : Batch).Sized T.internal.len :=
    ⟨g2.left, g2.right, g2.sn, g2.cn, r2.trans g2.flux⟩
  obtain ⟨f', a1, a2, a3⟩ := add_spec (P := P) hT (u := u) hsz (by
    intro e he r hr
    obtain ⟨⟨x, y, hx⟩, ⟨z, w, hz⟩⟩ := g6 e he r hr
    obtain ⟨hs, hc⟩ := hn e he (by rw [hr]; rfl)
    have hl : (b1.left.upto b1.left.len fun _ s => s.withVelocities P.tinyH P.hAnuga).val e =
        (b1.left.val e).withVelocities P.tinyH P.hAnuga := upto_val_lt (by rw [g2.left]; exact he)
    have hrr : (b1.right.upto b1.right.len fun _ s => s.withVelocities P.tinyH P.hAnuga).val e =
        (b1.right.val e).withVelocities P.tinyH P.hAnuga := upto_val_lt (by rw [g2.right]; exact he)
    refine ⟨?_, ?_, ?_⟩
    · show ((b1.left.upto _ _).val e).h = _
      rw [hl, withVelocities_h, hx]; rfl
    · show ((b1.right.upto _ _).val e).h = _
      rw [hrr, withVelocities_h, hz]; rfl
    · intro i hi
      show F.val (3 * e + i) = _
      rw [r3 e he i hi, hl, hrr, withVelocities_prim, withVelocities_prim, hx, hz, g3, g4, hs, hc]
      rfl) hf
  show ∃ b' f', (loopM _ T.internal.len f).map _ = _ ∧ _
  rw [a1]
  refine ⟨_, f', rfl, hsz, ?_, a2, a3⟩
  intro e he hs
  show b1.sn.val e = _ ∧ b1.cn.val e = _
  rw [g3, g4]
  exact hn e he hs

/-! ### The operator of a boundary -/

/-- What the tables of a boundary have to satisfy: its edges exist, there are values for each of them. -/
structure Bnd.Valid (B : Bnd) (ne : ℕ) : Prop where
  ids : ∀ e < B.ids.len, B.ids.val e < ne
  values : B.values.len = 3 * B.ids.len

/-- The arrays of a boundary's operator have their lengths and hold the normals. -/
structure BState.Ready (s : BState) (T : Tables) (B : Bnd) : Prop where
  left : s.batch.left.len = B.ids.len
  right : s.batch.right.len = B.ids.len
  sn : s.batch.sn.len = B.ids.len
  cn : s.batch.cn.len = B.ids.len
  fluxes : s.fluxes.len = 3 * B.ids.len
  accum : s.accum.len = 3 * B.ids.len
  normals : ∀ e < B.ids.len, s.batch.sn.val e = T.sn.val (B.ids.val e) ∧ s.batch.cn.val e = T.cn.val (B.ids.val e)

/-- the condition of edge `e` of a boundary -/
def Bnd.cond (B : Bnd) (e : ℕ) : BCond :=
  match B.type with
  | .dirichlet => .dirichlet (stateAt B.values e)
  | .reflecting => .reflecting
  | .outflow => .outflow

/-- the two states of edge `e` of a boundary -/
noncomputable def bStates (P : FlowParams) (T : Tables) (B : Bnd) (u : Arr ℝ) (e : ℕ) : Prim × Prim :=
  boundaryStates P.g P.tinyH P.hAnuga (B.cond e) (stateAt u (T.leftOf (B.ids.val e))) (T.sn.val (B.ids.val e))
    (T.cn.val (B.ids.val e))

/-- what edge `e` of a boundary adds to entry `(o, i)` -/
noncomputable def bEdgeTerm (P : FlowParams) (T : Tables) (B : Bnd) (u : Arr ℝ) (o i e : ℕ) : Num :=
  recv (T.owned.val (T.leftOf (B.ids.val e))) (T.l2o.val (T.leftOf (B.ids.val e))) o
    (Num.scale ((usedFlux P.g P.tinyH (bStates P T B u e).1 (bStates P T B u e).2 (T.sn.val (B.ids.val e))
      (T.cn.val (B.ids.val e))).map fun F => F.comp i)
      (-(T.elen.val (B.ids.val e)) / T.area.val (T.leftOf (B.ids.val e))))

theorem createBoundaryB_spec {T : Tables} {nc n ne : ℕ} (hT : T.Valid nc n ne) {B : Bnd} (hB : B.Valid ne) :
    ∃ s, createBoundaryB T B = some s ∧ s.Ready T B ∧ s.accum = Arr.calloc (3 * B.ids.len) (some 0) := by
  unfold createBoundaryB
  obtain ⟨b, h1, h2, h3⟩ := loopM_inv (step := bNormalStep T B) (n := B.ids.len) (s := Batch.create B.ids.len)
    (fun k b => b.Sized B.ids.len ∧ ∀ e < k,
      b.sn.val e = T.sn.val (B.ids.val e) ∧ b.cn.val e = T.cn.val (B.ids.val e))
    ⟨Batch.create_sized _, by intro e he; omega⟩ (by
      rintro k hk b ⟨hb, hv⟩
      have hid := hB.ids k hk
      unfold bNormalStep
      rw [Arr.get_some hk]
      show ∃ s', (T.cn.get (B.ids.val k)).bind _ = some s' ∧ _
      rw [Arr.get_some (by rw [hT.cn]; exact hid)]
      show ∃ s', (b.cn.put k _).bind _ = some s' ∧ _
      rw [Arr.put_some _ (by rw [hb.cn]; exact hk)]
      show ∃ s', (T.sn.get _).bind _ = some s' ∧ _
      rw [Arr.get_some (by rw [hT.sn]; exact hid)]
      show ∃ s', (b.sn.put k _).bind _ = some s' ∧ _
      rw [Arr.put_some _ (by rw [hb.sn]; exact hk)]
      refine ⟨_, rfl, ⟨hb.left, hb.right, hb.sn, hb.cn, hb.flux⟩, ?_⟩
      intro e he
      show Function.update b.sn.val k _ e = _ ∧ Function.update b.cn.val k _ e = _
      by_cases h : e = k
      · subst h; rw [Function.update_self, Function.update_self]; exact ⟨rfl, rfl⟩
      · rw [Function.update_of_ne h, Function.update_of_ne h]; exact hv e (by omega))
  rw [h1]
  exact ⟨_, rfl, ⟨h2.left, h2.right, h2.sn, h2.cn, rfl, rfl, h3⟩, rfl⟩

theorem bGather_spec {T : Tables} {nc n ne : ℕ} (hT : T.Valid nc n ne) {B : Bnd} (hB : B.Valid ne) {u : Arr ℝ}
    (hu : u.len = 3 * nc) {a : Arr RState} (ha : a.len = B.ids.len) :
    loopM (bGatherStep T B u) B.ids.len a =
      some (a.upto B.ids.len fun e s => s.withCons (stateAt u (T.leftOf (B.ids.val e)))) := by
  refine loop_upto _ fun k hk => ?_
  have hid := hB.ids k hk
  obtain ⟨hl0, hl1⟩ := hT.left _ hid
  unfold bGatherStep
  rw [Arr.get_some hk]
  show (T.cellIds.get (2 * B.ids.val k)).bind _ = _
  rw [Arr.get_some (by rw [hT.cellIds]; omega)]
  show (asIndex _).bind _ = _
  rw [asIndex_some hl0]
  show putState 3 _ k u _ = _
  rw [putState_some (show k < (a.upto k _).len from ha.symm ▸ hk) hl1 hu, Arr.upto_val_self]
  exact Arr.upto_put (fun (e : ℕ) (s : RState) => s.withCons (stateAt u (T.leftOf (B.ids.val e)))) (by rw [ha]; exact hk)

theorem dirichlet_gather {B : Bnd} {ne : ℕ} (hB : B.Valid ne) {a : Arr RState} (ha : a.len = B.ids.len) :
    loopM (fun (a : Arr RState) (e : ℕ) => putState 3 a e B.values e) B.ids.len a =
      some (a.upto B.ids.len fun e s => s.withCons (stateAt B.values e)) := by
  refine loop_upto _ fun k hk => ?_
  rw [putState_some (show k < (a.upto k _).len from ha.symm ▸ hk) hk hB.values, Arr.upto_val_self]
  exact Arr.upto_put (fun (e : ℕ) (s : RState) => s.withCons (stateAt B.values e)) (by rw [ha]; exact hk)

theorem withCons_prim (tinyH hAnuga : ℝ) (s : RState) (q : Cons) :
    ((s.withCons q).withVelocities tinyH hAnuga).prim = velocities tinyH hAnuga q := withVelocities_prim ..

/-- the conditions: the states of the edges of owned cells -/
theorem bCondition_spec {P : FlowParams} {T : Tables} {nc n ne : ℕ} (hT : T.Valid nc n ne) {B : Bnd} (hB : B.Valid ne)
    {s : BState} (hs : s.Ready T B) {u : Arr ℝ} {L R : Arr RState} (hL : L.len = B.ids.len) (hR : R.len = B.ids.len)
    (hLv : ∀ e < B.ids.len, (L.val e).prim = velocities P.tinyH P.hAnuga (stateAt u (T.leftOf (B.ids.val e)))) :
    ∃ L' R', bConditionB P T B s.batch.sn s.batch.cn L R = some (L', R') ∧ L'.len = B.ids.len ∧ R'.len = B.ids.len ∧
      ∀ e < B.ids.len, T.owned.val (T.leftOf (B.ids.val e)) = true →
        (L'.val e).prim = (bStates P T B u e).1 ∧ (R'.val e).prim = (bStates P T B u e).2 := by
  unfold bConditionB bStates Bnd.cond
  have hidx : ∀ k < B.ids.len, B.ids.get k = some (B.ids.val k) ∧
      T.cellIds.get (2 * B.ids.val k) = some (T.cellIds.val (2 * B.ids.val k)) ∧
      asIndex (T.cellIds.val (2 * B.ids.val k)) = some (T.leftOf (B.ids.val k)) ∧
      T.owned.get (T.leftOf (B.ids.val k)) = some (T.owned.val (T.leftOf (B.ids.val k))) := by
    intro k hk
    have hid := hB.ids k hk
    obtain ⟨hl0, hl1⟩ := hT.left _ hid
    exact ⟨Arr.get_some hk, Arr.get_some (by rw [hT.cellIds]; omega), asIndex_some hl0,
      Arr.get_some (by rw [hT.owned]; exact hl1)⟩
  cases ht : B.type with
  | dirichlet =>
    dsimp only
    rw [dirichlet_gather hB hR]
    show ∃ L' R', (velocitiesB _ _ _).map _ = _ ∧ _
    rw [velocitiesB_eq]
    refine ⟨L, _, rfl, hL, hR, ?_⟩
    intro e he _
    refine ⟨hLv e he, ?_⟩
    rw [upto_val_lt (show e < (R.upto _ _).len by show e < R.len; rw [hR]; exact he), upto_val_lt he]
    exact withCons_prim ..
  | reflecting =>
    dsimp only
    obtain ⟨R', h1, h2, h3⟩ := loopM_inv (step := reflectStep T B L s.batch.sn s.batch.cn) (n := B.ids.len) (s := R)
      (fun k a => a.len = B.ids.len ∧ ∀ e < k, T.owned.val (T.leftOf (B.ids.val e)) = true →
        (a.val e).prim = reflectRight (velocities P.tinyH P.hAnuga (stateAt u (T.leftOf (B.ids.val e))))
          (T.sn.val (B.ids.val e)) (T.cn.val (B.ids.val e))) ⟨hR, by intro e he; omega⟩ (by
        rintro k hk a ⟨hal, hav⟩
        obtain ⟨e1, e2, e3, e4⟩ := hidx k hk
        obtain ⟨hsn, hcn⟩ := hs.normals k hk
        unfold reflectStep
        rw [e1]
        show ∃ s', (T.cellIds.get _).bind _ = some s' ∧ _
        rw [e2]
        show ∃ s', (asIndex _).bind _ = some s' ∧ _
        rw [e3]
        show ∃ s', (T.owned.get _).bind _ = some s' ∧ _
        rw [e4]
        show ∃ s', (if T.owned.val (T.leftOf (B.ids.val k)) = true then _ else _) = some s' ∧ _
        by_cases hw : T.owned.val (T.leftOf (B.ids.val k)) = true
        · rw [if_pos hw, Arr.get_some (by rw [hL]; exact hk)]
          show ∃ s', (a.get k).bind _ = some s' ∧ _
          rw [Arr.get_some (by rw [hal]; exact hk)]
          show ∃ s', (s.batch.sn.get k).bind _ = some s' ∧ _
          rw [Arr.get_some (by rw [hs.sn]; exact hk)]
          show ∃ s', (s.batch.cn.get k).bind _ = some s' ∧ _
          rw [Arr.get_some (by rw [hs.cn]; exact hk)]
          show ∃ s', a.put k _ = some s' ∧ _
          rw [Arr.put_some _ (by rw [hal]; exact hk)]
          refine ⟨_, rfl, hal, ?_⟩
          intro e he hwe
          by_cases h : e = k
          · subst h
            show (Function.update a.val e _ e).prim = _
            rw [Function.update_self, ← hLv e hk, hsn, hcn]
            rfl
          · show (Function.update a.val k _ e).prim = _
            rw [Function.update_of_ne h]
            exact hav e (by omega) hwe
        · rw [if_neg hw]
          refine ⟨a, rfl, hal, ?_⟩
          intro e he hwe
          by_cases h : e = k
          · subst h; exact absurd hwe hw
          · exact hav e (by omega) hwe)
    rw [h1]
    refine ⟨L, R', rfl, hL, h2, ?_⟩
    intro e he hwe
    exact ⟨hLv e he, h3 e he hwe⟩
  | outflow =>
    dsimp only
    obtain ⟨LR, h1, ⟨h2, h2'⟩, h3, _⟩ := loopM_inv (step := outflowStep P.g T B s.batch.sn s.batch.cn) (n := B.ids.len)
      (s := (L, R))
      (fun k a => (a.1.len = B.ids.len ∧ a.2.len = B.ids.len) ∧
        (∀ e < k, T.owned.val (T.leftOf (B.ids.val e)) = true →
          (a.1.val e).prim = (outflowStates P.g (velocities P.tinyH P.hAnuga (stateAt u (T.leftOf (B.ids.val e))))
            (T.sn.val (B.ids.val e)) (T.cn.val (B.ids.val e))).1 ∧
          (a.2.val e).prim = (outflowStates P.g (velocities P.tinyH P.hAnuga (stateAt u (T.leftOf (B.ids.val e))))
            (T.sn.val (B.ids.val e)) (T.cn.val (B.ids.val e))).2) ∧
        ∀ e, k ≤ e → a.1.val e = L.val e) ⟨⟨hL, hR⟩, by intro e he; omega, fun _ _ => rfl⟩ (by
        rintro k hk ⟨a, b⟩ ⟨⟨hal, hbl⟩, hav, hrest⟩
        dsimp only at hal hbl hav hrest
        obtain ⟨e1, e2, e3, e4⟩ := hidx k hk
        obtain ⟨hsn, hcn⟩ := hs.normals k hk
        have hpk := hLv k hk
        rw [← hrest k le_rfl] at hpk
        unfold outflowStep
        rw [e1]
        show ∃ s', (T.cellIds.get _).bind _ = some s' ∧ _
        rw [e2]
        show ∃ s', (asIndex _).bind _ = some s' ∧ _
        rw [e3]
        show ∃ s', (T.owned.get _).bind _ = some s' ∧ _
        rw [e4]
        show ∃ s', (if T.owned.val (T.leftOf (B.ids.val k)) = true then _ else _) = some s' ∧ _
        by_cases hw : T.owned.val (T.leftOf (B.ids.val k)) = true
        · rw [if_pos hw]
          show ∃ s', (a.get k).bind _ = some s' ∧ _
          rw [Arr.get_some (by rw [hal]; exact hk)]
          show ∃ s', (b.get k).bind _ = some s' ∧ _
          rw [Arr.get_some (by rw [hbl]; exact hk)]
          show ∃ s', (s.batch.sn.get k).bind _ = some s' ∧ _
          rw [Arr.get_some (by rw [hs.sn]; exact hk)]
          show ∃ s', (s.batch.cn.get k).bind _ = some s' ∧ _
          rw [Arr.get_some (by rw [hs.cn]; exact hk)]
          show ∃ s', (if (a.val k).u * s.batch.cn.val k + (a.val k).v * s.batch.sn.val k < 0 then _ else _) = some s' ∧ _
          rw [hsn, hcn]
          have hup : uperp (velocities P.tinyH P.hAnuga (stateAt u (T.leftOf (B.ids.val k)))).u
              (velocities P.tinyH P.hAnuga (stateAt u (T.leftOf (B.ids.val k)))).v (T.sn.val (B.ids.val k))
              (T.cn.val (B.ids.val k)) = (a.val k).u * T.cn.val (B.ids.val k) + (a.val k).v * T.sn.val (B.ids.val k) := by
            rw [← hpk]; rfl
          by_cases hneg : (a.val k).u * T.cn.val (B.ids.val k) + (a.val k).v * T.sn.val (B.ids.val k) < 0
          · rw [if_pos hneg]
            show ∃ s', (a.put k _).bind _ = some s' ∧ _
            rw [Arr.put_some _ (by rw [hal]; exact hk)]
            show ∃ s', (b.put k _).map _ = some s' ∧ _
            rw [Arr.put_some _ (by rw [hbl]; exact hk)]
            refine ⟨_, rfl, ⟨hal, hbl⟩, ?_, ?_⟩
            · intro e he hwe
              by_cases h : e = k
              · subst h
                show (Function.update a.val e _ e).prim = _ ∧ (Function.update b.val e _ e).prim = _
                rw [Function.update_self, Function.update_self]
                unfold outflowStates
                rw [hup, if_pos hneg]
                exact ⟨rfl, rfl⟩
              · show (Function.update a.val k _ e).prim = _ ∧ (Function.update b.val k _ e).prim = _
                rw [Function.update_of_ne h, Function.update_of_ne h]
                exact hav e (by omega) hwe
            · intro e he
              show Function.update a.val k _ e = _
              rw [Function.update_of_ne (by omega)]
              exact hrest e (by omega)
          · rw [if_neg hneg]
            show ∃ s', (b.put k _).map _ = some s' ∧ _
            rw [Arr.put_some _ (by rw [hbl]; exact hk)]
            refine ⟨_, rfl, ⟨hal, hbl⟩, ?_, ?_⟩
            · intro e he hwe
              by_cases h : e = k
              · subst h
                show (a.val e).prim = _ ∧ (Function.update b.val e _ e).prim = _
                rw [Function.update_self]
                unfold outflowStates
                rw [hup, if_neg hneg, ← hpk]
                exact ⟨rfl, rfl⟩
              · show (a.val e).prim = _ ∧ (Function.update b.val k _ e).prim = _
                rw [Function.update_of_ne h]
                exact hav e (by omega) hwe
            · intro e he
              exact hrest e (by omega)
        · rw [if_neg hw]
          refine ⟨(a, b), rfl, ⟨hal, hbl⟩, ?_, fun e he => hrest e (by omega)⟩
          intro e he hwe
          by_cases h : e = k
          · subst h; exact absurd hwe hw
          · exact hav e (by omega) hwe)
    rw [h1]
    exact ⟨LR.1, LR.2, rfl, h2, h2', h3⟩

theorem prim_h (s : RState) : s.prim.h = s.h := rfl

/-- adding one row to one cell -/
theorem row_add {nd : ℕ} {flux : Arr Num} {e o m n : ℕ} {s : ℝ} {f : Arr Num} (ho : o < n) (he : e < m)
    (hx : flux.len = nd * m) (hf : f.len = nd * n) :
    ∃ f', loopM (fun (f : Arr Num) (i : ℕ) => addEntry nd flux e o s i f) nd f = some f' ∧ f'.len = f.len ∧
      ∀ o' i, i < nd → f'.val (nd * o' + i) =
        (f.val (nd * o' + i)).add (recv true o o' ((flux.val (nd * e + i)).scale s)) := by
  obtain ⟨f', h1, h2, h3⟩ := loopM_inv (step := fun (f : Arr Num) (i : ℕ) => addEntry nd flux e o s i f) (n := nd) (s := f)
    (fun k a => a.len = f.len ∧ ∀ o' i, i < nd → a.val (nd * o' + i) =
      if i < k then (f.val (nd * o' + i)).add (recv true o o' ((flux.val (nd * e + i)).scale s))
      else f.val (nd * o' + i)) ⟨rfl, by intro o' i _; simp⟩ (by
      rintro k hk a ⟨hal, hav⟩
      have hin : nd * o + k < a.len := by rw [hal, hf]; exact flat_lt ho hk
      have hin' : nd * e + k < flux.len := by rw [hx]; exact flat_lt he hk
      refine ⟨⟨a.len, Function.update a.val (nd * o + k)
        ((a.val (nd * o + k)).add ((flux.val (nd * e + k)).scale s))⟩, ?_, hal, ?_⟩
      · unfold addEntry
        rw [Arr.get_some hin]
        show (flux.get (nd * e + k)).bind _ = _
        rw [Arr.get_some hin']
        exact Arr.put_some _ hin
      · intro o' i hi
        show Function.update a.val _ _ _ = _
        by_cases h : o' = o ∧ i = k
        · obtain ⟨rfl, rfl⟩ := h
          rw [Function.update_self, if_pos (by omega), hav o' i hi, if_neg (by omega)]
          unfold recv
          rw [if_pos ⟨rfl, rfl⟩]
        · rw [Function.update_of_ne (by rw [Ne, flat_inj hi hk]; exact h), hav o' i hi]
          by_cases h2 : i < k
          · rw [if_pos h2, if_pos (by omega)]
          · by_cases h3 : i = k
            · subst h3
              rw [if_neg h2, if_pos (by omega)]
              unfold recv
              rw [if_neg (fun hh => h ⟨hh.2.symm, rfl⟩), Num.add_zero']
            · rw [if_neg h2, if_neg (by omega)])
  refine ⟨f', h1, h2, fun o' i hi => ?_⟩
  rw [h3 o' i hi, if_pos hi]

/-- The operator of a boundary: no undefined access, and result and fluxes depend on the state only. -/
theorem applyBoundaryB_spec {P : FlowParams} {T : Tables} {nc n ne : ℕ} (hT : T.Valid nc n ne) {B : Bnd} (hB : B.Valid ne)
    (dt : ℝ) {s : BState} (hs : s.Ready T B) {u : Arr ℝ} (hu : u.len = 3 * nc) {f : Arr Num} (hf : f.len = 3 * n) :
    ∃ s' f', applyBoundaryB P T B dt s u f = some (s', f') ∧ s'.Ready T B ∧ f'.len = f.len ∧
      (∀ o i, i < 3 → f'.val (3 * o + i) = (List.range B.ids.len).foldl
        (fun (a : Num) (e : ℕ) => a.add (bEdgeTerm P T B u o i e)) (f.val (3 * o + i))) ∧
      (∀ e < B.ids.len, T.owned.val (T.leftOf (B.ids.val e)) = true → ∀ i < 3,
        s'.fluxes.val (3 * e + i) = (roeFlux P.g (bStates P T B u e).1 (bStates P T B u e).2 (T.sn.val (B.ids.val e))
          (T.cn.val (B.ids.val e))).map fun F => F.1.comp i) ∧
      ∀ j, s'.accum.val j = (s.accum.val j).add ((s'.fluxes.val j).scale dt) := by
  unfold applyBoundaryB
  rw [bGather_spec hT hB hu hs.left]
  show ∃ s' f', (velocitiesB _ _ _).bind _ = _ ∧ _
  rw [velocitiesB_eq]
  obtain ⟨L, R, c1, c2, c3, c4⟩ := bCondition_spec (P := P) (s := s) hT hB hs (u := u)
    (L := (s.batch.left.upto B.ids.len fun e s => s.withCons (stateAt u (T.leftOf (B.ids.val e)))).upto
      (s.batch.left.upto B.ids.len fun e s => s.withCons (stateAt u (T.leftOf (B.ids.val e)))).len
      fun _ s => s.withVelocities P.tinyH P.hAnuga) (R := s.batch.right) hs.left hs.right (by
      intro e he
      rw [upto_val_lt (show e < (s.batch.left.upto _ _).len by show e < s.batch.left.len; rw [hs.left]; exact he),
        upto_val_lt he]
      exact withCons_prim ..)
  show ∃ s' f', (bConditionB P T B s.batch.sn s.batch.cn _ s.batch.right).bind _ = _ ∧ _
  rw [c1]
  obtain ⟨F, r1, r2, r3⟩ := roeB_spec (g := P.g) c2 c3 hs.sn hs.cn hs.fluxes
  show ∃ s' f', (roeB P.g L R s.batch.sn s.batch.cn s.fluxes).bind _ = _ ∧ _
  rw [r1]
  have hF : ∀ e < B.ids.len, T.owned.val (T.leftOf (B.ids.val e)) = true → ∀ i < 3,
      F.val (3 * e + i) = (roeFlux P.g (bStates P T B u e).1 (bStates P T B u e).2 (T.sn.val (B.ids.val e))
        (T.cn.val (B.ids.val e))).map fun F => F.1.comp i := by
    intro e he hw i hi
    obtain ⟨p1, p2⟩ := c4 e he hw
    obtain ⟨n1, n2⟩ := hs.normals e he
    rw [r3 e he i hi, p1, p2, n1, n2]
  obtain ⟨f', a1, a2, a3⟩ := loopM_inv (step := bAddStep P T B L R F) (n := B.ids.len) (s := f)
    (fun k a => a.len = f.len ∧ ∀ o i, i < 3 → a.val (3 * o + i) = (List.range k).foldl
        (fun (a : Num) (e : ℕ) => a.add (bEdgeTerm P T B u o i e)) (f.val (3 * o + i))) ⟨rfl, by intro o i _; rfl⟩ (by
      rintro k hk a ⟨hal, hav⟩
      have hid := hB.ids k hk
      obtain ⟨hl0, hl1⟩ := hT.left _ hid
      unfold bAddStep
      rw [Arr.get_some hk]
      show ∃ s', (T.elen.get _).bind _ = some s' ∧ _
      rw [Arr.get_some (by rw [hT.elen]; exact hid)]
      show ∃ s', (T.cellIds.get _).bind _ = some s' ∧ _
      rw [Arr.get_some (by rw [hT.cellIds]; omega)]
      show ∃ s', (asIndex _).bind _ = some s' ∧ _
      rw [asIndex_some hl0]
      show ∃ s', (T.owned.get (T.leftOf (B.ids.val k))).bind _ = some s' ∧ _
      rw [Arr.get_some (by rw [hT.owned]; exact hl1)]
      show ∃ s', (if T.owned.val (T.leftOf (B.ids.val k)) = true then _ else _) = some s' ∧ _
      by_cases hw : T.owned.val (T.leftOf (B.ids.val k)) = true
      · obtain ⟨p1, p2⟩ := c4 k hk hw
        rw [if_pos hw]
        show ∃ s', (T.area.get (T.leftOf (B.ids.val k))).bind _ = some s' ∧ _
        rw [Arr.get_some (by rw [hT.area]; exact hl1)]
        show ∃ s', (L.get k).bind _ = some s' ∧ _
        rw [Arr.get_some (by rw [c2]; exact hk)]
        show ∃ s', (R.get k).bind _ = some s' ∧ _
        rw [Arr.get_some (by rw [c3]; exact hk)]
        show ∃ s', (if (L.val k).h < P.tinyH ∧ (R.val k).h < P.tinyH then _ else _) = some s' ∧ _
        rw [← prim_h (L.val k), ← prim_h (R.val k), p1, p2]
        by_cases hd : (bStates P T B u k).1.h < P.tinyH ∧ (bStates P T B u k).2.h < P.tinyH
        · rw [if_pos hd]
          refine ⟨a, rfl, hal, ?_⟩
          intro o i hi
          rw [List.range_succ, List.foldl_append, ← hav o i hi]
          show _ = (a.val (3 * o + i)).add (bEdgeTerm P T B u o i k)
          unfold bEdgeTerm usedFlux
          rw [if_neg (not_not.mpr hd.symm), Option.map_some, comp_zero, Num.scale_zero, recv_zero, Num.add_zero']
        · rw [if_neg hd]
          show ∃ s', (T.l2o.get (T.leftOf (B.ids.val k))).bind _ = some s' ∧ _
          rw [Arr.get_some (by rw [hT.l2o]; exact hl1)]
          obtain ⟨f', e1, e2, e3⟩ := row_add (nd := 3) (flux := F) (e := k)
            (s := -(T.elen.val (B.ids.val k)) / T.area.val (T.leftOf (B.ids.val k))) (f := a)
            (hT.range _ hl1 hw) hk (r2.trans hs.fluxes) (by rw [hal, hf])
          refine ⟨f', e1, by rw [e2, hal], ?_⟩
          intro o i hi
          rw [List.range_succ, List.foldl_append, ← hav o i hi, e3 o i hi, hF k hk hw i hi]
          show _ = (a.val (3 * o + i)).add (bEdgeTerm P T B u o i k)
          unfold bEdgeTerm usedFlux
          rw [if_pos (fun h => hd h.symm), Option.map_map, hw]
          rfl
      · rw [if_neg hw]
        refine ⟨a, rfl, hal, ?_⟩
        intro o i hi
        rw [List.range_succ, List.foldl_append, ← hav o i hi]
        show _ = (a.val (3 * o + i)).add (bEdgeTerm P T B u o i k)
        unfold bEdgeTerm recv
        rw [if_neg (fun h => hw h.1), Num.add_zero'])
  show ∃ s' f', (loopM (bAddStep P T B L R F) B.ids.len f).map _ = _ ∧ _
  rw [a1]
  exact ⟨_, f', rfl, ⟨c2, c3, hs.sn, hs.cn, r2.trans hs.fluxes, hs.accum, hs.normals⟩, a2, a3, hF, fun _ => rfl⟩

end RDy
