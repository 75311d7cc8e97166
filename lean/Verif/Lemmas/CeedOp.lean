import Verif.Model.CeedOp
import Verif.Lemmas.PackedRun
import Mathlib.Tactic

/-! Lemmas about the assembled flux operators of the CEED backend. -/

namespace RDy

theorem Num.add_comm' (a b : Num) : a.add b = b.add a := by
  cases a <;> cases b <;> simp [Num.add, add_comm]

theorem Num.add_right_comm' (a b c : Num) : (a.add b).add c = (a.add c).add b := by
  rw [Num.add_assoc', Num.add_comm' b c, ← Num.add_assoc']

/-! ### Adding results to vectors -/

theorem plusAt_some {a : Arr Num} {p : ℕ} (x : Num) (h : p < a.len) :
    plusAt a p x = some ⟨a.len, Function.update a.val p ((a.val p).add x)⟩ := by
  unfold plusAt
  rw [Arr.get_some h]
  exact Arr.put_some _ h

theorem addTo_spec {r : Restr} {nd e c n : ℕ} (v : ℕ → Num) {a : Arr Num} (hb : r.base e = some (nd * c)) (hc : c < n)
    (hl : a.len = nd * n) :
    ∃ a', r.addTo nd v a e = some a' ∧ a'.len = a.len ∧
      ∀ o i, i < nd → a'.val (nd * o + i) = (a.val (nd * o + i)).add (recv true c o (v i)) := by
  obtain ⟨a', h1, h2, h3⟩ := loopM_inv (step := fun (a : Arr Num) (k : ℕ) => plusAt a (nd * c + k) (v k)) (n := nd) (s := a)
    (fun k s => s.len = a.len ∧ ∀ o i, i < nd → s.val (nd * o + i) =
      if o = c ∧ i < k then (a.val (nd * o + i)).add (v i) else a.val (nd * o + i)) ⟨rfl, by intro o i _; simp⟩ (by
      rintro k hk s ⟨hsl, hsv⟩
      have hin : nd * c + k < s.len := by rw [hsl, hl]; exact flat_lt hc hk
      refine ⟨_, plusAt_some _ hin, hsl, ?_⟩
      intro o i hi
      show Function.update s.val (nd * c + k) _ (nd * o + i) = _
      by_cases h : o = c ∧ i = k
      · obtain ⟨rfl, rfl⟩ := h
        rw [Function.update_self, if_pos ⟨rfl, by omega⟩, hsv o i hi, if_neg (by omega)]
      · rw [Function.update_of_ne (by rw [Ne, flat_inj hi hk]; exact h), hsv o i hi]
        by_cases h2 : o = c ∧ i < k
        · rw [if_pos h2, if_pos ⟨h2.1, by omega⟩]
        · rw [if_neg h2, if_neg]
          rintro ⟨ho, hik⟩
          have : i ≠ k := fun hh => h ⟨ho, hh⟩
          exact h2 ⟨ho, by omega⟩)
  refine ⟨a', ?_, h2, ?_⟩
  · unfold Restr.addTo
    rw [hb]
    exact h1
  · intro o i hi
    rw [h3 o i hi]
    unfold recv
    by_cases h : o = c
    · rw [if_pos ⟨h, hi⟩, if_pos ⟨rfl, h.symm⟩]
    · rw [if_neg (fun q => h q.1), if_neg (fun q => h q.2.symm), Num.add_zero']

/-- one output of an operator whose elements go to blocks of size `nd` -/
theorem addAll_spec {o : COut} {elems f n : ℕ} {E : ℕ → List (ℕ → Num)} (cell : ℕ → ℕ) (x : ℕ → ℕ → Num) {a : Arr Num}
    (hb : ∀ e < elems, o.restr.base e = some (o.comps * cell e)) (hc : ∀ e < elems, cell e < n)
    (hx : ∀ e < elems, ∀ k, ((E e).getD f fun _ => none) k = x e k) (hl : a.len = o.comps * n) :
    ∃ a', o.addAll elems E f a = some a' ∧ a'.len = a.len ∧
      ∀ c k, k < o.comps → a'.val (o.comps * c + k) =
        (List.range elems).foldl (fun (s : Num) (e : ℕ) => s.add (recv true (cell e) c (x e k))) (a.val (o.comps * c + k)) := by
  unfold COut.addAll
  refine loopM_inv (fun j (s : Arr Num) => s.len = a.len ∧ ∀ c k, k < o.comps → s.val (o.comps * c + k) =
      (List.range j).foldl (fun (s : Num) (e : ℕ) => s.add (recv true (cell e) c (x e k))) (a.val (o.comps * c + k)))
    ⟨rfl, fun c k _ => rfl⟩ ?_
  rintro j hj s ⟨hsl, hsv⟩
  obtain ⟨s', h1, h2, h3⟩ := addTo_spec ((E j).getD f fun _ => none) (hb j hj) (hc j hj) (hsl.trans hl)
  refine ⟨s', h1, h2.trans hsl, ?_⟩
  intro c k hk
  rw [h3 c k hk, hsv c k hk, List.range_succ, List.foldl_append, hx j hj]
  rfl

/-- every element has its own place -/
theorem foldl_own (x : ℕ → Num) (a : Num) (n c : ℕ) :
    (List.range n).foldl (fun (s : Num) (e : ℕ) => s.add (recv true e c (x e))) a = if c < n then a.add (x c) else a := by
  induction n with
  | zero => rfl
  | succ n ih =>
    rw [List.range_succ, List.foldl_append, ih]
    show Num.add _ _ = _
    unfold recv
    rcases lt_trichotomy c n with h | h | h
    · rw [if_pos h, if_neg (by omega), if_pos (by omega), Num.add_zero']
    · subst h
      rw [if_neg (by omega), if_pos ⟨rfl, rfl⟩, if_pos (by omega)]
    · rw [if_neg (by omega), if_neg (by omega), if_neg (by omega), Num.add_zero']

/-- all first parts, then all second parts, is the same as both parts of each element in turn -/
theorem foldl_two {α : Type} (x y : α → Num) (l : List α) : ∀ a : Num,
    l.foldl (fun (s : Num) (e : α) => s.add (y e)) (l.foldl (fun (s : Num) (e : α) => s.add (x e)) a) =
      l.foldl (fun (s : Num) (e : α) => (s.add (x e)).add (y e)) a := by
  have hc : ∀ (l : List α) (a b : Num), l.foldl (fun (s : Num) (e : α) => s.add (x e)) (a.add b) =
      (l.foldl (fun (s : Num) (e : α) => s.add (x e)) a).add b := by
    intro l
    induction l with
    | nil => intro a b; rfl
    | cons e l ih => intro a b; rw [List.foldl_cons, List.foldl_cons, Num.add_right_comm', ih]
  induction l with
  | nil => intro a; rfl
  | cons e l ih =>
    intro a
    rw [List.foldl_cons, List.foldl_cons, List.foldl_cons, ← hc, ih]

/-! ### Loops over the owned edges of a list -/

/-- is edge number `e` of the list owned -/
def CTables.own (T : CTables) (ids : Arr ℕ) (e : ℕ) : Bool := T.edgeOwned.val (ids.val e)

/-- the numbers of the owned edges among the first `n` of the list -/
def CTables.owned' (T : CTables) (ids : Arr ℕ) (n : ℕ) : List ℕ := (List.range n).filter (T.own ids)

theorem owned'_succ (T : CTables) (ids : Arr ℕ) (n : ℕ) :
    T.owned' ids (n + 1) = T.owned' ids n ++ if T.own ids n = true then [n] else [] := by
  unfold CTables.owned'
  rw [List.range_succ, List.filter_append]
  by_cases h : T.own ids n = true
  · rw [if_pos h, List.filter_cons_of_pos h]; rfl
  · rw [if_neg h, List.filter_cons_of_neg h]; rfl

theorem owned'_mem {T : CTables} {ids : Arr ℕ} {n e : ℕ} (h : e ∈ T.owned' ids n) : e < n ∧ T.own ids e = true := by
  unfold CTables.owned' at h
  rw [List.mem_filter, List.mem_range] at h
  exact h

theorem owned'_len_le (T : CTables) (ids : Arr ℕ) {m n : ℕ} (h : m ≤ n) : (T.owned' ids m).length ≤ (T.owned' ids n).length := by
  induction n with
  | zero => obtain rfl : m = 0 := by omega
            exact le_refl _
  | succ n ih =>
    rcases Nat.lt_or_ge n m with hm | hm
    · obtain rfl : m = n + 1 := by omega
      exact le_refl _
    · refine (ih hm).trans ?_
      rw [owned'_succ, List.length_append]
      omega

theorem owned'_len_self (T : CTables) (ids : Arr ℕ) (n : ℕ) : (T.owned' ids n).length ≤ n := by
  unfold CTables.owned'
  refine (List.length_filter_le _ _).trans ?_
  rw [List.length_range]

theorem ownedLoop_inv {σ : Type} {T : CTables} {ids : Arr ℕ} {ne : ℕ} (hi : ∀ e < ids.len, ids.val e < ne)
    (ho : T.edgeOwned.len = ne) {body : σ → ℕ → ℕ → ℕ → Option σ} (I : List ℕ → σ → Prop) {s : σ} (h0 : I [] s)
    (hs : ∀ l e s, e < ids.len → T.own ids e = true → l.length < (T.owned' ids ids.len).length → I l s →
      ∃ s', body s l.length e (ids.val e) = some s' ∧ I (l ++ [e]) s') :
    ∃ s', ownedLoopC T ids body s = some (s', (T.owned' ids ids.len).length) ∧ I (T.owned' ids ids.len) s' := by
  obtain ⟨s', h1, h2, h3⟩ := loopM_inv (step := ownedStep T ids body) (n := ids.len) (s := (s, 0))
    (fun k p => p.2 = (T.owned' ids k).length ∧ I (T.owned' ids k) p.1) ⟨rfl, h0⟩ (by
      rintro k hk ⟨p, j⟩ ⟨hj, hp⟩
      dsimp only at hj hp
      subst hj
      unfold ownedStep
      rw [Arr.get_some hk]
      show ∃ s', (T.edgeOwned.get (ids.val k)).bind _ = some s' ∧ _
      rw [Arr.get_some (by rw [ho]; exact hi k hk)]
      show ∃ s', (if T.own ids k = true then _ else _) = some s' ∧ _
      by_cases hw : T.own ids k = true
      · have hlt : (T.owned' ids k).length < (T.owned' ids ids.len).length := by
          have h5 := owned'_len_le T ids (show k + 1 ≤ ids.len from hk)
          rw [owned'_succ, if_pos hw, List.length_append] at h5
          exact h5
        obtain ⟨p', h6, h7⟩ := hs _ k p hk hw hlt hp
        refine ⟨(p', (T.owned' ids k).length + 1), ?_, ?_, ?_⟩
        · rw [if_pos hw]
          show Option.map _ (body p (T.owned' ids k).length k (ids.val k)) = _
          rw [h6]; rfl
        · rw [owned'_succ, if_pos hw, List.length_append]; rfl
        · rw [owned'_succ, if_pos hw]; exact h7
      · refine ⟨(p, (T.owned' ids k).length), ?_, ?_, ?_⟩
        · rw [if_neg hw]
        · rw [owned'_succ, if_neg hw, List.append_nil]
        · rw [owned'_succ, if_neg hw, List.append_nil]; exact hp)
  obtain ⟨p, j⟩ := s'
  dsimp only at h2 h3
  subst h2
  exact ⟨p, h1, h3⟩

theorem putRow_spec {nd : ℕ} (G : ℕ → ℝ) {a : Arr ℝ} {e n : ℕ} (he : e < n) (hl : a.len = nd * n) :
    ∃ a', putRow nd G a e = some a' ∧ a'.len = a.len ∧
      ∀ o i, i < nd → a'.val (nd * o + i) = if o = e then G i else a.val (nd * o + i) := by
  obtain ⟨a', h1, h2, h3⟩ := rrow_put G (f := a) he (hl.trans (Nat.mul_comm _ _))
  refine ⟨a', ?_, h2, ?_⟩
  · unfold putRow
    rw [Nat.mul_comm]; exact h1
  · intro o i hi
    have := h3 o i hi
    rwa [Nat.mul_comm] at this

/-! ### The arrays of the operators -/

/-- What the mesh has to satisfy (`nc` local cells, `n` owned ones, `ne` edges, `nv` vertices): besides `Tables.Valid`, all local cells
have a number in `local_to_owned`, owned internal edges have two cells and are counted, and the vertices exist. -/
structure CTables.Valid (T : CTables) (nc n ne nv : ℕ) : Prop where
  base : T.toTables.Valid nc n ne
  edgeOwned : T.edgeOwned.len = ne
  l2o_lt : ∀ c < nc, T.l2o.val c < nc
  vertexIds : T.vertexIds.len = 2 * ne
  vertex : ∀ k < 2 * ne, T.vertexIds.val k < nv
  vz : T.vz.len = nv
  two : ∀ e < T.internal.len, T.own T.internal e = true → T.cellIds.val (2 * T.internal.val e + 1) ≠ -1
  count : T.numOwnedInternal = (T.owned' T.internal T.internal.len).length

/-- the second cell of an edge that has one -/
def CTables.R (T : CTables) (id : ℕ) : ℕ := (T.cellIds.val (2 * id + 1)).toNat

theorem getD_concat {l : List ℕ} {e j : ℕ} (hj : j < l.length + 1) :
    (l ++ [e]).getD j 0 = if j < l.length then l.getD j 0 else e := by
  by_cases h : j < l.length
  · rw [if_pos h, List.getD_eq_getElem?_getD, List.getD_eq_getElem?_getD, List.getElem?_append_left h]
  · obtain rfl : j = l.length := by omega
    rw [if_neg h]
    simp

/-- the geometric factors of an internal edge -/
noncomputable def CTables.geom (T : CTables) (id k : ℕ) : ℝ :=
  if k = 0 then T.sn.val id else if k = 1 then T.cn.val id
  else if k = 2 then -T.elen.val id / T.area.val (T.leftOf id) else if k = 3 then T.elen.val id / T.area.val (T.R id)
  else if k = 4 then T.vz.val (T.vertexIds.val (2 * id)) else T.vz.val (T.vertexIds.val (2 * id + 1))

/-- the geometric factors of a boundary edge -/
noncomputable def CTables.bgeom (T : CTables) (id k : ℕ) : ℝ :=
  if k = 0 then T.sn.val id else if k = 1 then T.cn.val id
  else if k = 2 then -T.elen.val id / T.area.val (T.leftOf id)
  else if k = 3 then T.vz.val (T.vertexIds.val (2 * id)) else T.vz.val (T.vertexIds.val (2 * id + 1))

variable {T : CTables} {nc n ne nv : ℕ}

theorem CTables.Valid.left_lt (hT : T.Valid nc n ne nv) {id : ℕ} (h : id < ne) : T.leftOf id < nc := (hT.base.left id h).2

theorem CTables.Valid.right_lt (hT : T.Valid nc n ne nv) {id : ℕ} (h : id < ne) (h2 : T.cellIds.val (2 * id + 1) ≠ -1) :
    0 ≤ T.cellIds.val (2 * id + 1) ∧ T.R id < nc := by
  rcases hT.base.right id h with h3 | h3
  · exact absurd h3 h2
  · exact h3

theorem geomBody_spec (hT : T.Valid nc n ne nv) {g : Arr ℝ} {i e id N : ℕ} (hi : i < N) (hl : g.len = 6 * N) (hid : id < ne)
    (h2 : T.cellIds.val (2 * id + 1) ≠ -1) :
    ∃ g', geomBody T g i e id = some g' ∧ g'.len = g.len ∧
      ∀ o k, k < 6 → g'.val (6 * o + k) = if o = i then T.geom id k else g.val (6 * o + k) := by
  have hb := hT.base
  unfold geomBody
  rw [Arr.get_some (show 2 * id < T.cellIds.len by rw [hb.cellIds]; omega)]
  show ∃ g', (T.cellIds.get (2 * id + 1)).bind _ = some g' ∧ _
  rw [Arr.get_some (show 2 * id + 1 < T.cellIds.len by rw [hb.cellIds]; omega)]
  show ∃ g', (asIndex (T.cellIds.val (2 * id))).bind _ = some g' ∧ _
  rw [asIndex_some (hb.left id hid).1]
  show ∃ g', (asIndex (T.cellIds.val (2 * id + 1))).bind _ = some g' ∧ _
  rw [asIndex_some (hT.right_lt hid h2).1]
  show ∃ g', (T.sn.get id).bind _ = some g' ∧ _
  rw [Arr.get_some (show id < T.sn.len by rw [hb.sn]; exact hid)]
  show ∃ g', (T.cn.get id).bind _ = some g' ∧ _
  rw [Arr.get_some (show id < T.cn.len by rw [hb.cn]; exact hid)]
  show ∃ g', (T.elen.get id).bind _ = some g' ∧ _
  rw [Arr.get_some (show id < T.elen.len by rw [hb.elen]; exact hid)]
  show ∃ g', (T.area.get (T.leftOf id)).bind _ = some g' ∧ _
  rw [Arr.get_some (show T.leftOf id < T.area.len by rw [hb.area]; exact hT.left_lt hid)]
  show ∃ g', (T.area.get (T.R id)).bind _ = some g' ∧ _
  rw [Arr.get_some (show T.R id < T.area.len by rw [hb.area]; exact (hT.right_lt hid h2).2)]
  show ∃ g', (T.vertexIds.get (2 * id)).bind _ = some g' ∧ _
  rw [Arr.get_some (show 2 * id < T.vertexIds.len by rw [hT.vertexIds]; omega)]
  show ∃ g', (T.vertexIds.get (2 * id + 1)).bind _ = some g' ∧ _
  rw [Arr.get_some (show 2 * id + 1 < T.vertexIds.len by rw [hT.vertexIds]; omega)]
  show ∃ g', (T.vz.get _).bind _ = some g' ∧ _
  rw [Arr.get_some (show T.vertexIds.val (2 * id) < T.vz.len by rw [hT.vz]; exact hT.vertex _ (by omega))]
  show ∃ g', (T.vz.get _).bind _ = some g' ∧ _
  rw [Arr.get_some (show T.vertexIds.val (2 * id + 1) < T.vz.len by rw [hT.vz]; exact hT.vertex _ (by omega))]
  exact putRow_spec (T.geom id) hi hl

theorem bGeomBody_spec (hT : T.Valid nc n ne nv) {g : Arr ℝ} {i e id N : ℕ} (hi : i < N) (hl : g.len = 5 * N) (hid : id < ne) :
    ∃ g', bGeomBody T g i e id = some g' ∧ g'.len = g.len ∧
      ∀ o k, k < 5 → g'.val (5 * o + k) = if o = i then T.bgeom id k else g.val (5 * o + k) := by
  have hb := hT.base
  unfold bGeomBody
  rw [Arr.get_some (show 2 * id < T.cellIds.len by rw [hb.cellIds]; omega)]
  show ∃ g', (asIndex (T.cellIds.val (2 * id))).bind _ = some g' ∧ _
  rw [asIndex_some (hb.left id hid).1]
  show ∃ g', (T.sn.get id).bind _ = some g' ∧ _
  rw [Arr.get_some (show id < T.sn.len by rw [hb.sn]; exact hid)]
  show ∃ g', (T.cn.get id).bind _ = some g' ∧ _
  rw [Arr.get_some (show id < T.cn.len by rw [hb.cn]; exact hid)]
  show ∃ g', (T.elen.get id).bind _ = some g' ∧ _
  rw [Arr.get_some (show id < T.elen.len by rw [hb.elen]; exact hid)]
  show ∃ g', (T.area.get (T.leftOf id)).bind _ = some g' ∧ _
  rw [Arr.get_some (show T.leftOf id < T.area.len by rw [hb.area]; exact hT.left_lt hid)]
  show ∃ g', (T.vertexIds.get (2 * id)).bind _ = some g' ∧ _
  rw [Arr.get_some (show 2 * id < T.vertexIds.len by rw [hT.vertexIds]; omega)]
  show ∃ g', (T.vertexIds.get (2 * id + 1)).bind _ = some g' ∧ _
  rw [Arr.get_some (show 2 * id + 1 < T.vertexIds.len by rw [hT.vertexIds]; omega)]
  show ∃ g', (T.vz.get _).bind _ = some g' ∧ _
  rw [Arr.get_some (show T.vertexIds.val (2 * id) < T.vz.len by rw [hT.vz]; exact hT.vertex _ (by omega))]
  show ∃ g', (T.vz.get _).bind _ = some g' ∧ _
  rw [Arr.get_some (show T.vertexIds.val (2 * id + 1) < T.vz.len by rw [hT.vz]; exact hT.vertex _ (by omega))]
  exact putRow_spec (T.bgeom id) hi hl

/-- entry `i` of an array after `a[i] = x` -/
theorem put_at {α : Type} {a : Arr α} {i N : ℕ} (x : α) (h : i < N) (hl : a.len = N) :
    a.put i x = some ⟨a.len, Function.update a.val i x⟩ := Arr.put_some x (by omega)

/-- The arrays of offsets have `N` entries and those of the first edges `l` are set. -/
structure Offsets.Set (o : Offsets) (T : CTables) (ids : Arr ℕ) (N : ℕ) (l : List ℕ) : Prop where
  ql_len : o.ql.len = N
  qr_len : o.qr.len = N
  cl_len : o.cl.len = N
  cr_len : o.cr.len = N
  eb_len : o.eb.len = N
  ee_len : o.ee.len = N
  ql : ∀ j < l.length, o.ql.val j = some (3 * T.leftOf (ids.val (l.getD j 0)))
  cl : ∀ j < l.length, o.cl.val j = some (3 * T.l2o.val (T.leftOf (ids.val (l.getD j 0))))
  eb : ∀ j < l.length, o.eb.val j = some (T.vertexIds.val (2 * ids.val (l.getD j 0)))
  ee : ∀ j < l.length, o.ee.val j = some (T.vertexIds.val (2 * ids.val (l.getD j 0) + 1))

/-- appending one entry -/
theorem set_concat {α : Type} {a : Arr α} {l : List ℕ} {e : ℕ} (φ : ℕ → α) (h : ∀ j < l.length, a.val j = φ (l.getD j 0)) :
    ∀ j < (l ++ [e]).length, (Function.update a.val l.length (φ e)) j = φ ((l ++ [e]).getD j 0) := by
  intro j hj
  rw [List.length_append] at hj
  rw [getD_concat hj]
  by_cases hjl : j < l.length
  · rw [if_pos hjl, Function.update_of_ne (by omega), h j hjl]
  · have : j < l.length + 1 := hj
    obtain rfl : j = l.length := by omega
    rw [if_neg hjl, Function.update_self]

theorem offsetBody_spec (hT : T.Valid nc n ne nv) {ids : Arr ℕ} {o : Offsets} {l : List ℕ} {e N : ℕ} (hi : l.length < N)
    (ho : o.Set T ids N l) (hr : ∀ j < l.length, o.qr.val j = some (3 * T.R (ids.val (l.getD j 0))))
    (hc : ∀ j < l.length, o.cr.val j = some (3 * T.l2o.val (T.R (ids.val (l.getD j 0)))))
    (hid : ids.val e < ne) (h2 : T.cellIds.val (2 * ids.val e + 1) ≠ -1) :
    ∃ o', offsetBody T o l.length e (ids.val e) = some o' ∧ o'.Set T ids N (l ++ [e]) ∧
      (∀ j < (l ++ [e]).length, o'.qr.val j = some (3 * T.R (ids.val ((l ++ [e]).getD j 0)))) ∧
      (∀ j < (l ++ [e]).length, o'.cr.val j = some (3 * T.l2o.val (T.R (ids.val ((l ++ [e]).getD j 0))))) := by
  have hb := hT.base
  unfold offsetBody
  rw [Arr.get_some (show 2 * ids.val e < T.cellIds.len by rw [hb.cellIds]; omega)]
  show ∃ o', (T.cellIds.get (2 * ids.val e + 1)).bind _ = some o' ∧ _
  rw [Arr.get_some (show 2 * ids.val e + 1 < T.cellIds.len by rw [hb.cellIds]; omega)]
  show ∃ o', (asIndex (T.cellIds.val (2 * ids.val e))).bind _ = some o' ∧ _
  rw [asIndex_some (hb.left _ hid).1]
  show ∃ o', (asIndex (T.cellIds.val (2 * ids.val e + 1))).bind _ = some o' ∧ _
  rw [asIndex_some (hT.right_lt hid h2).1]
  show ∃ o', (o.ql.put l.length (some (3 * T.leftOf (ids.val e)))).bind _ = some o' ∧ _
  rw [put_at _ hi ho.ql_len]
  show ∃ o', (o.qr.put l.length (some (3 * T.R (ids.val e)))).bind _ = some o' ∧ _
  rw [put_at _ hi ho.qr_len]
  show ∃ o', (T.l2o.get (T.leftOf (ids.val e))).bind _ = some o' ∧ _
  rw [Arr.get_some (show T.leftOf (ids.val e) < T.l2o.len by rw [hb.l2o]; exact hT.left_lt hid)]
  show ∃ o', (o.cl.put l.length _).bind _ = some o' ∧ _
  rw [put_at _ hi ho.cl_len]
  show ∃ o', (T.l2o.get (T.R (ids.val e))).bind _ = some o' ∧ _
  rw [Arr.get_some (show T.R (ids.val e) < T.l2o.len by rw [hb.l2o]; exact (hT.right_lt hid h2).2)]
  show ∃ o', (o.cr.put l.length _).bind _ = some o' ∧ _
  rw [put_at _ hi ho.cr_len]
  show ∃ o', (T.vertexIds.get (2 * ids.val e)).bind _ = some o' ∧ _
  rw [Arr.get_some (show 2 * ids.val e < T.vertexIds.len by rw [hT.vertexIds]; omega)]
  show ∃ o', (T.vertexIds.get (2 * ids.val e + 1)).bind _ = some o' ∧ _
  rw [Arr.get_some (show 2 * ids.val e + 1 < T.vertexIds.len by rw [hT.vertexIds]; omega)]
  show ∃ o', (o.eb.put l.length _).bind _ = some o' ∧ _
  rw [put_at _ hi ho.eb_len]
  show ∃ o', (o.ee.put l.length _).map _ = some o' ∧ _
  rw [put_at _ hi ho.ee_len]
  rw [Nat.one_mul, Nat.one_mul]
  refine ⟨_, rfl, ⟨ho.ql_len, ho.qr_len, ho.cl_len, ho.cr_len, ho.eb_len, ho.ee_len, ?_, ?_, ?_, ?_⟩, ?_, ?_⟩
  · exact set_concat (fun e => some (3 * T.leftOf (ids.val e))) ho.ql
  · exact set_concat (fun e => some (3 * T.l2o.val (T.leftOf (ids.val e)))) ho.cl
  · exact set_concat (fun e => some (T.vertexIds.val (2 * ids.val e))) ho.eb
  · exact set_concat (fun e => some (T.vertexIds.val (2 * ids.val e + 1))) ho.ee
  · exact set_concat (fun e => some (3 * T.R (ids.val e))) hr
  · exact set_concat (fun e => some (3 * T.l2o.val (T.R (ids.val e)))) hc

theorem bOffsetBody_spec (hT : T.Valid nc n ne nv) {ids : Arr ℕ} {o : Offsets} {l : List ℕ} {e N : ℕ} (hi : l.length < N)
    (ho : o.Set T ids N l) (hr : ∀ j < l.length, o.qr.val j = some (3 * l.getD j 0)) (hid : ids.val e < ne) :
    ∃ o', bOffsetBody T o l.length e (ids.val e) = some o' ∧ o'.Set T ids N (l ++ [e]) ∧
      ∀ j < (l ++ [e]).length, o'.qr.val j = some (3 * (l ++ [e]).getD j 0) := by
  have hb := hT.base
  unfold bOffsetBody
  rw [Arr.get_some (show 2 * ids.val e < T.cellIds.len by rw [hb.cellIds]; omega)]
  show ∃ o', (asIndex (T.cellIds.val (2 * ids.val e))).bind _ = some o' ∧ _
  rw [asIndex_some (hb.left _ hid).1]
  show ∃ o', (o.ql.put l.length (some (3 * T.leftOf (ids.val e)))).bind _ = some o' ∧ _
  rw [put_at _ hi ho.ql_len]
  show ∃ o', (T.l2o.get (T.leftOf (ids.val e))).bind _ = some o' ∧ _
  rw [Arr.get_some (show T.leftOf (ids.val e) < T.l2o.len by rw [hb.l2o]; exact hT.left_lt hid)]
  show ∃ o', (o.cl.put l.length _).bind _ = some o' ∧ _
  rw [put_at _ hi ho.cl_len]
  show ∃ o', (o.qr.put l.length _).bind _ = some o' ∧ _
  rw [put_at _ hi ho.qr_len]
  show ∃ o', (T.vertexIds.get (2 * ids.val e)).bind _ = some o' ∧ _
  rw [Arr.get_some (show 2 * ids.val e < T.vertexIds.len by rw [hT.vertexIds]; omega)]
  show ∃ o', (T.vertexIds.get (2 * ids.val e + 1)).bind _ = some o' ∧ _
  rw [Arr.get_some (show 2 * ids.val e + 1 < T.vertexIds.len by rw [hT.vertexIds]; omega)]
  show ∃ o', (o.eb.put l.length _).bind _ = some o' ∧ _
  rw [put_at _ hi ho.eb_len]
  show ∃ o', (o.ee.put l.length _).map _ = some o' ∧ _
  rw [put_at _ hi ho.ee_len]
  rw [Nat.one_mul, Nat.one_mul]
  refine ⟨_, rfl, ⟨ho.ql_len, ho.qr_len, ho.cl_len, ho.cr_len, ho.eb_len, ho.ee_len, ?_, ?_, ?_, ?_⟩, ?_⟩
  · exact set_concat (fun e => some (3 * T.leftOf (ids.val e))) ho.ql
  · exact set_concat (fun e => some (3 * T.l2o.val (T.leftOf (ids.val e)))) ho.cl
  · exact set_concat (fun e => some (T.vertexIds.val (2 * ids.val e))) ho.eb
  · exact set_concat (fun e => some (T.vertexIds.val (2 * ids.val e + 1))) ho.ee
  · exact set_concat (fun e => some (3 * e)) hr

/-- rows of a packed array, one more -/
theorem rows_concat {nd : ℕ} {g g' : Arr ℝ} {l : List ℕ} {e : ℕ} (φ : ℕ → ℕ → ℝ)
    (h : ∀ j < l.length, ∀ k < nd, g.val (nd * j + k) = φ (l.getD j 0) k)
    (h' : ∀ o k, k < nd → g'.val (nd * o + k) = if o = l.length then φ e k else g.val (nd * o + k)) :
    ∀ j < (l ++ [e]).length, ∀ k < nd, g'.val (nd * j + k) = φ ((l ++ [e]).getD j 0) k := by
  intro j hj k hk
  rw [List.length_append] at hj
  rw [getD_concat hj, h' j k hk]
  by_cases hjl : j < l.length
  · rw [if_pos hjl, if_neg (by omega), h j hjl k hk]
  · have : j < l.length + 1 := hj
    obtain rfl : j = l.length := by omega
    rw [if_neg hjl, if_pos rfl]

/-- The operator of the internal edges with the vectors `fl` and `cn` of its passive outputs. -/
noncomputable def interiorC (P : FlowParams) (N : ℕ) (g : Arr ℝ) (o : Offsets) (eta : Arr ℝ) (fl cn : Arr Num) : COp where
  elems := N
  ins := [⟨.strided 6, 6, some g⟩, ⟨.offsets o.ql, 3, none⟩, ⟨.offsets o.qr, 3, none⟩, ⟨.offsets o.eb, 1, some eta⟩,
    ⟨.offsets o.ee, 1, some eta⟩]
  outs := [⟨.offsets o.cl, 3, none⟩, ⟨.offsets o.cr, 3, none⟩, ⟨.strided 3, 3, some fl⟩, ⟨.strided 2, 2, some cn⟩]
  kernel := sweKernel P

/-- What the arrays of the operator of the internal edges hold. -/
structure InteriorReady (T : CTables) (g : Arr ℝ) (o : Offsets) : Prop where
  len : g.len = 6 * T.numOwnedInternal
  geom : ∀ j < T.numOwnedInternal, ∀ k < 6,
    g.val (6 * j + k) = T.geom (T.internal.val ((T.owned' T.internal T.internal.len).getD j 0)) k
  set : o.Set T T.internal T.numOwnedInternal (T.owned' T.internal T.internal.len)
  qr : ∀ j < T.numOwnedInternal,
    o.qr.val j = some (3 * T.R (T.internal.val ((T.owned' T.internal T.internal.len).getD j 0)))
  cr : ∀ j < T.numOwnedInternal,
    o.cr.val j = some (3 * T.l2o.val (T.R (T.internal.val ((T.owned' T.internal T.internal.len).getD j 0))))

theorem malloc_set (T : CTables) (ids : Arr ℕ) (N : ℕ) : (Offsets.malloc N).Set T ids N [] :=
  ⟨rfl, rfl, rfl, rfl, rfl, rfl, fun _ h => absurd h (Nat.not_lt_zero _), fun _ h => absurd h (Nat.not_lt_zero _),
    fun _ h => absurd h (Nat.not_lt_zero _), fun _ h => absurd h (Nat.not_lt_zero _)⟩

theorem createInteriorC_spec (P : FlowParams) (hT : T.Valid nc n ne nv) (eta : Arr ℝ) :
    ∃ g o, InteriorReady T g o ∧ createInteriorC P T eta = some (interiorC P T.numOwnedInternal g o eta
      (Arr.calloc (3 * T.numOwnedInternal) (some 0)) (Arr.calloc (2 * T.numOwnedInternal) (some 0))) := by
  obtain ⟨g, hg1, hg2, hg3⟩ := ownedLoop_inv (T := T) (ids := T.internal) hT.base.ids hT.edgeOwned (body := geomBody T)
    (fun l g => g.len = 6 * T.numOwnedInternal ∧ ∀ j < l.length, ∀ k < 6, g.val (6 * j + k) = T.geom (T.internal.val (l.getD j 0)) k)
    (s := Arr.calloc (6 * T.numOwnedInternal) 0) ⟨rfl, fun _ h => absurd h (Nat.not_lt_zero _)⟩ (by
      rintro l e g he hw hl ⟨h1, h2⟩
      rw [← hT.count] at hl
      obtain ⟨g', e1, e2, e3⟩ := geomBody_spec hT (e := e) hl h1 (hT.base.ids e he) (hT.two e he hw)
      exact ⟨g', e1, e2.trans h1, rows_concat (fun e k => T.geom (T.internal.val e) k) h2 e3⟩)
  obtain ⟨o, ho1, ho2, ho3, ho4⟩ := ownedLoop_inv (T := T) (ids := T.internal) hT.base.ids hT.edgeOwned (body := offsetBody T)
    (fun l o => o.Set T T.internal T.numOwnedInternal l ∧
      (∀ j < l.length, o.qr.val j = some (3 * T.R (T.internal.val (l.getD j 0)))) ∧
      (∀ j < l.length, o.cr.val j = some (3 * T.l2o.val (T.R (T.internal.val (l.getD j 0))))))
    (s := Offsets.malloc T.numOwnedInternal) ⟨malloc_set _ _ _, fun _ h => absurd h (Nat.not_lt_zero _),
      fun _ h => absurd h (Nat.not_lt_zero _)⟩ (by
      rintro l e o he hw hl ⟨h1, h2, h3⟩
      rw [← hT.count] at hl
      exact offsetBody_spec hT hl h1 h2 h3 (hT.base.ids e he) (hT.two e he hw))
  refine ⟨g, o, ⟨hg2, ?_, ho2, ?_, ?_⟩, ?_⟩
  · intro j hj; exact hg3 j (by rw [← hT.count]; exact hj)
  · intro j hj; exact ho3 j (by rw [← hT.count]; exact hj)
  · intro j hj; exact ho4 j (by rw [← hT.count]; exact hj)
  · unfold createInteriorC
    rw [hg1]
    show Option.map _ (ownedLoopC T T.internal (offsetBody T) _) = _
    rw [ho1]
    rfl

/-- The operator of a boundary with the vectors `fl` and `cn` of its passive outputs. -/
noncomputable def boundaryC (P : FlowParams) (B : Bnd) (N : ℕ) (g : Arr ℝ) (o : Offsets) (eta : Arr ℝ) (fl cn : Arr Num) : COp where
  elems := N
  ins := bInputs B g o eta
  outs := [⟨.offsets o.cl, 3, none⟩, ⟨.strided 3, 3, some fl⟩, ⟨.strided 1, 1, some cn⟩]
  kernel := sweBKernel P B.type

/-- What the arrays of the operator of a boundary hold. -/
structure BoundaryReady (T : CTables) (B : Bnd) (g : Arr ℝ) (o : Offsets) : Prop where
  len : g.len = 5 * B.ids.len
  geom : ∀ j < (T.owned' B.ids B.ids.len).length, ∀ k < 5,
    g.val (5 * j + k) = T.bgeom (B.ids.val ((T.owned' B.ids B.ids.len).getD j 0)) k
  set : o.Set T B.ids B.ids.len (T.owned' B.ids B.ids.len)
  qr : ∀ j < (T.owned' B.ids B.ids.len).length, o.qr.val j = some (3 * (T.owned' B.ids B.ids.len).getD j 0)

theorem createBoundaryC_spec (P : FlowParams) (hT : T.Valid nc n ne nv) {B : Bnd} (hB : B.Valid ne) (eta : Arr ℝ) :
    ∃ g o, BoundaryReady T B g o ∧ createBoundaryC P T eta B = some (boundaryC P B (T.owned' B.ids B.ids.len).length g o eta
      (Arr.calloc (3 * B.ids.len) (some 0)) (Arr.calloc (1 * B.ids.len) (some 0))) := by
  have hle := owned'_len_self T B.ids B.ids.len
  obtain ⟨w, hw1, -⟩ := ownedLoop_inv (T := T) (ids := B.ids) hB.ids hT.edgeOwned (body := fun (_ : Unit) _ _ _ => some ())
    (fun _ _ => True) (s := ()) trivial (by rintro l e ⟨⟩ _ _ _ _; exact ⟨(), rfl, trivial⟩)
  obtain ⟨g, hg1, hg2, hg3⟩ := ownedLoop_inv (T := T) (ids := B.ids) hB.ids hT.edgeOwned (body := bGeomBody T)
    (fun l g => g.len = 5 * B.ids.len ∧ ∀ j < l.length, ∀ k < 5, g.val (5 * j + k) = T.bgeom (B.ids.val (l.getD j 0)) k)
    (s := Arr.calloc (5 * B.ids.len) 0) ⟨rfl, fun _ h => absurd h (Nat.not_lt_zero _)⟩ (by
      rintro l e g he hw hl ⟨h1, h2⟩
      obtain ⟨g', e1, e2, e3⟩ := bGeomBody_spec hT (e := e) (hl.trans_le hle) h1 (hB.ids e he)
      exact ⟨g', e1, e2.trans h1, rows_concat (fun e k => T.bgeom (B.ids.val e) k) h2 e3⟩)
  obtain ⟨o, ho1, ho2, ho3⟩ := ownedLoop_inv (T := T) (ids := B.ids) hB.ids hT.edgeOwned (body := bOffsetBody T)
    (fun l o => o.Set T B.ids B.ids.len l ∧ ∀ j < l.length, o.qr.val j = some (3 * l.getD j 0))
    (s := Offsets.malloc B.ids.len) ⟨malloc_set _ _ _, fun _ h => absurd h (Nat.not_lt_zero _)⟩ (by
      rintro l e o he hw hl ⟨h1, h2⟩
      exact bOffsetBody_spec hT (hl.trans_le hle) h1 h2 (hB.ids e he))
  refine ⟨g, o, ⟨hg2, hg3, ho2, ho3⟩, ?_⟩
  unfold createBoundaryC countOwned
  rw [hw1]
  show (ownedLoopC T B.ids (bGeomBody T) _).bind _ = _
  rw [hg1]
  show Option.map _ (ownedLoopC T B.ids (bOffsetBody T) _) = _
  rw [ho1]
  rfl

end RDy
