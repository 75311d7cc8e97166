import Verif.Model.BndRun
import Verif.Lemmas.CeedOpRun
import Verif.Lemmas.CeedTOp
import Verif.Lemmas.PetscRhs
import Mathlib.Tactic

/-! Lemmas on runs that set boundary values. -/

namespace RDy

theorem index_split {total j k i : ℕ} (hj : j < total) : i = total * k + j ↔ i / total = k ∧ i % total = j := by
  constructor
  · rintro rfl
    exact ⟨by rw [Nat.mul_add_div (by omega), Nat.div_eq_of_lt hj, Nat.add_zero], by rw [Nat.mul_add_mod, Nat.mod_eq_of_lt hj]⟩
  · rintro ⟨rfl, rfl⟩
    exact (Nat.div_add_mod i total).symm

theorem writeColumn_spec {total j m c ne : ℕ} (hj : j < total) (hc : c < m) {values a : Arr ℝ} (hv : values.len = m * ne) (ha : a.len = total * ne) :
    ∃ a', loopM (fun (a : Arr ℝ) (e : ℕ) => (values.get (m * e + c)).bind fun x => a.put (total * e + j) x) ne a = some a' ∧ a'.len = a.len ∧
      ∀ i, a'.val i = if i / total < ne ∧ i % total = j then values.val (m * (i / total) + c) else a.val i := by
  refine loopM_inv (fun k (a' : Arr ℝ) => a'.len = a.len ∧
      ∀ i, a'.val i = if i / total < k ∧ i % total = j then values.val (m * (i / total) + c) else a.val i) ⟨rfl, fun i => ?_⟩ ?_
  · rw [if_neg fun h => absurd h.1 (Nat.not_lt_zero _)]
  · rintro k hk a' ⟨h1, h2⟩
    have l1 : m * k + c < values.len := by
      rw [hv]
      calc m * k + c < m * k + m := by omega
        _ = m * (k + 1) := by ring
        _ ≤ m * ne := Nat.mul_le_mul_left _ hk
    have l2 : total * k + j < a'.len := by
      rw [h1, ha]
      calc total * k + j < total * k + total := by omega
        _ = total * (k + 1) := by ring
        _ ≤ total * ne := Nat.mul_le_mul_left _ hk
    refine ⟨⟨a'.len, Function.update a'.val (total * k + j) (values.val (m * k + c))⟩, ?_, h1, fun i => ?_⟩
    · rw [Arr.get_some l1, Option.bind_some, Arr.put_some _ l2]
    · show Function.update a'.val (total * k + j) (values.val (m * k + c)) i = _
      by_cases hi : i = total * k + j
      · obtain ⟨q1, q2⟩ := (index_split hj).mp hi
        rw [hi, Function.update_self, ← hi, if_pos ⟨by omega, q2⟩, q1]
      · rw [Function.update_of_ne hi, h2 i]
        by_cases hr : i % total = j
        · have hne : i / total ≠ k := fun h => hi ((index_split hj).mpr ⟨h, hr⟩)
          by_cases hlt : i / total < k
          · rw [if_pos ⟨hlt, hr⟩, if_pos ⟨by omega, hr⟩]
          · rw [if_neg fun h => hlt h.1, if_neg fun h => by have := h.1; omega]
        · rw [if_neg fun h => hr h.2, if_neg fun h => hr h.2]

/-- What the two loops of the setters write. -/
theorem writeBoundary_spec {total off m ne : ℕ} (ho : off + m ≤ total) {values a : Arr ℝ} (hv : values.len = m * ne) (ha : a.len = total * ne) :
    ∃ a', writeBoundary total off m ne values a = some a' ∧ a'.len = a.len ∧
      ∀ i, a'.val i = if i / total < ne ∧ off ≤ i % total ∧ i % total < off + m then values.val (m * (i / total) + (i % total - off)) else a.val i := by
  refine loopM_inv (fun c (a' : Arr ℝ) => a'.len = a.len ∧
      ∀ i, a'.val i = if i / total < ne ∧ off ≤ i % total ∧ i % total < off + c then values.val (m * (i / total) + (i % total - off)) else a.val i)
      ⟨rfl, fun i => ?_⟩ ?_
  · rw [if_neg fun h => by have := h.2; omega]
  · rintro c hc a' ⟨h1, h2⟩
    obtain ⟨a2, e1, e2, e3⟩ := writeColumn_spec (total := total) (j := off + c) (m := m) (c := c) (ne := ne) (by omega) hc hv (a := a') (h1.trans ha)
    refine ⟨a2, ?_, e2.trans h1, fun i => ?_⟩
    · simpa only [Nat.add_assoc] using e1
    · rw [e3 i, h2 i]
      by_cases hd : i / total < ne
      · by_cases hr : i % total = off + c
        · rw [if_pos ⟨hd, hr⟩, if_pos ⟨hd, by omega, by omega⟩, hr, Nat.add_sub_cancel_left]
        · rw [if_neg fun h => hr h.2]
          by_cases hs : off ≤ i % total ∧ i % total < off + c
          · rw [if_pos ⟨hd, hs⟩, if_pos ⟨hd, hs.1, by omega⟩]
          · rw [if_neg fun h => hs h.2, if_neg fun h => hs ⟨h.2.1, by have := h.2; omega⟩]
      · rw [if_neg fun h => hd h.1, if_neg fun h => hd h.1, if_neg fun h => hd h.1]

/-! ### Sequences of calls -/

theorem bndRun_snoc {σ : Type} {p : Phys} {infos : List BndInfo} {wr : σ → ℕ → (Arr ℝ → Option (Arr ℝ)) → Res σ} {ev : σ → ℝ → Arr ℝ → Option (σ × Arr Num)} :
    ∀ {l : List BndCall} {a : BndCall} {s s' : BndState σ}, bndRun p infos wr ev (l ++ [a]) s = .ok s' ↔
      ∃ s1, bndRun p infos wr ev l s = .ok s1 ∧ bndStep p infos wr ev s1 a = .ok s' := by
  intro l
  induction l with
  | nil =>
    intro a s s'
    constructor
    · intro h
      refine ⟨s, rfl, ?_⟩
      rw [List.nil_append] at h
      unfold bndRun at h
      cases hs : bndStep p infos wr ev s a with
      | ok s1 => rw [hs] at h; exact h
      | error => rw [hs] at h; cases h
      | ub => rw [hs] at h; cases h
    · rintro ⟨s1, h1, h2⟩
      unfold bndRun at h1
      cases h1
      rw [List.nil_append]
      unfold bndRun
      rw [h2]
      rfl
  | cons x l ih =>
    intro a s s'
    constructor
    · intro h
      rw [List.cons_append] at h
      unfold bndRun at h
      unfold bndRun
      cases hs : bndStep p infos wr ev s x with
      | ok s1 => rw [hs] at h; exact ih.mp h
      | error => rw [hs] at h; cases h
      | ub => rw [hs] at h; cases h
    · rintro ⟨s1, h1, h2⟩
      rw [List.cons_append]
      unfold bndRun at h1
      unfold bndRun
      cases hs : bndStep p infos wr ev s x with
      | ok s2 => rw [hs] at h1; exact ih.mpr ⟨s1, h1, h2⟩
      | error => rw [hs] at h1; cases h1
      | ub => rw [hs] at h1; cases h1

/-! ### Boundaries with other values -/

/-- The boundaries with other values. -/
def withValues (Bs : List Bnd) (w : ℕ → Arr ℝ) : List Bnd := Bs.mapIdx fun b B => { B with values := w b }

/-- The boundaries with other values, with tracers. -/
def withTValues (Bs : List TBnd) (w : ℕ → Arr ℝ) : List TBnd := Bs.mapIdx fun b B => { B with values := w b }

theorem withValues_get (Bs : List Bnd) (w : ℕ → Arr ℝ) (b : ℕ) : (withValues Bs w)[b]? = Bs[b]?.map fun B => { B with values := w b } := by
  unfold withValues
  rw [List.getElem?_mapIdx]

theorem withTValues_get (Bs : List TBnd) (w : ℕ → Arr ℝ) (b : ℕ) : (withTValues Bs w)[b]? = Bs[b]?.map fun B => { B with values := w b } := by
  unfold withTValues
  rw [List.getElem?_mapIdx]

theorem withValues_update (Bs : List Bnd) (w : ℕ → Arr ℝ) {b : ℕ} {B : Bnd} (hb : Bs[b]? = some B) (a : Arr ℝ) :
    withValues Bs (Function.update w b a) = (withValues Bs w).set b { B with values := a } := by
  apply List.ext_getElem?
  intro i
  rw [withValues_get, List.getElem?_set, withValues_get]
  by_cases h : b = i
  · subst h
    have hl : b < (withValues Bs w).length := by unfold withValues; rw [List.length_mapIdx]; exact (List.getElem?_eq_some_iff.mp hb).1
    rw [if_pos rfl, if_pos hl, hb, Function.update_self]
    rfl
  · rw [if_neg h, Function.update_of_ne (Ne.symm h)]

theorem withTValues_update (Bs : List TBnd) (w : ℕ → Arr ℝ) {b : ℕ} {B : TBnd} (hb : Bs[b]? = some B) (a : Arr ℝ) :
    withTValues Bs (Function.update w b a) = (withTValues Bs w).set b { B with values := a } := by
  apply List.ext_getElem?
  intro i
  rw [withTValues_get, List.getElem?_set, withTValues_get]
  by_cases h : b = i
  · subst h
    have hl : b < (withTValues Bs w).length := by unfold withTValues; rw [List.length_mapIdx]; exact (List.getElem?_eq_some_iff.mp hb).1
    rw [if_pos rfl, if_pos hl, hb, Function.update_self]
    rfl
  · rw [if_neg h, Function.update_of_ne (Ne.symm h)]

theorem forall₂_set {α β : Type} {R : α → β → Prop} : ∀ {l : List α} {l' : List β}, List.Forall₂ R l l' → ∀ {b : ℕ} {x : α} {y : β}, R x y →
    List.Forall₂ R (l.set b x) (l'.set b y) := by
  intro l l' h
  induction h with
  | nil => intro b x y _; exact .nil
  | cons h1 h2 ih =>
    intro b x y hxy
    cases b with
    | zero => exact .cons hxy h2
    | succ b => exact .cons h1 (ih hxy)

/-! ### The CEED backend, flow only -/

/-- What the operator of a boundary is between evaluations. -/
def BHolds (P : FlowParams) (T : CTables) (eta : Arr ℝ) (B : Bnd) (op : COp) : Prop :=
  ∃ g o fl cn, BoundaryReady T B g o ∧ fl.len = 3 * B.ids.len ∧ cn.len = 1 * B.ids.len ∧
    op = boundaryC P B (T.owned' B.ids B.ids.len).length g o eta fl cn

/-- What the composite operator is between evaluations. -/
def OpsHold (P : FlowParams) (T : CTables) (eta : Arr ℝ) (Bs : List Bnd) (ops : List COp) : Prop :=
  ∃ g o fl cn bops, InteriorReady T g o ∧ fl.len = 3 * T.numOwnedInternal ∧ cn.len = 2 * T.numOwnedInternal ∧
    ops = interiorC P T.numOwnedInternal g o eta fl cn :: bops ∧ List.Forall₂ (BHolds P T eta) Bs bops

variable {T : CTables} {nc n ne nv : ℕ}

theorem boundaries_hold (P : FlowParams) (hT : T.Valid nc n ne nv) {eta u : Arr ℝ} (he : eta.len = nv) (hu : u.len = 3 * nc)
    (dt : ℝ) {Bs : List Bnd} {ops : List COp} (h : List.Forall₂ (BHolds P T eta) Bs ops) :
    (∀ B ∈ Bs, B.Valid ne) → ∀ {rhs : Arr Num}, rhs.len = 3 * nc →
    ∃ ops' rhs', compositeAdd dt u ops rhs = some (ops', rhs') ∧ List.Forall₂ (BHolds P T eta) Bs ops' ∧
      rhs'.len = 3 * nc ∧ ∀ c k, k < 3 → rhs'.val (3 * c + k) = boundariesAdd P T eta u c k (rhs.val (3 * c + k)) Bs := by
  induction h with
  | nil => intro _ rhs hr; exact ⟨[], rhs, rfl, .nil, hr, fun c k _ => rfl⟩
  | @cons B op Bs ops h1 h2 ih =>
    intro hB rhs hr
    obtain ⟨g, o, fl, cn, hR, hf, hc, rfl⟩ := h1
    obtain ⟨fl', cn', r1, e1, e2, e3, e4, e5, -⟩ := boundary_apply P hT (hB B List.mem_cons_self) hR he hu hf hc hr dt
    obtain ⟨ops', r2, i1, i2, i3, i4⟩ := ih (fun B' h' => hB B' (List.mem_cons_of_mem _ h')) (e4.trans hr)
    refine ⟨_ :: ops', r2, ?_, .cons ⟨g, o, fl', cn', hR, e2.trans hf, e3.trans hc, rfl⟩ i2, i3, ?_⟩
    · unfold compositeAdd
      rw [e1]
      show Option.map _ (compositeAdd dt u ops r1) = _
      rw [i1]
      rfl
    · intro c k hk
      rw [i4 c k hk, e5 c k hk]
      rfl

theorem evaluation_holds (P : FlowParams) (hT : T.Valid nc n ne nv) {eta u : Arr ℝ} (he : eta.len = nv) (hu : u.len = 3 * nc)
    (dt : ℝ) {Bs : List Bnd} {ops : List COp} (hB : ∀ B ∈ Bs, B.Valid ne) (h : OpsHold P T eta Bs ops) :
    ∃ ops' rhs', fluxEvaluationC nc dt u ops = some (ops', rhs') ∧ OpsHold P T eta Bs ops' ∧
      rhs'.len = 3 * nc ∧ ∀ c k, k < 3 → rhs'.val (3 * c + k) = boundariesAdd P T eta u c k
        ((T.owned' T.internal T.internal.len).foldl (edgeAdd P T eta u c k) (some 0)) Bs := by
  obtain ⟨g, o, fl, cn, bops, hR, hf, hc, rfl, hb⟩ := h
  obtain ⟨fl', cn', r1, e1, e2, e3, e4, e5, -⟩ := interior_apply P hT hR he hu hf hc
    (rhs := Arr.calloc (3 * nc) (some 0)) rfl dt
  obtain ⟨ops', r2, i1, i2, i3, i4⟩ := boundaries_hold P hT he hu dt hb hB e4
  refine ⟨_ :: ops', r2, ?_, ⟨g, o, fl', cn', ops', hR, e2.trans hf, e3.trans hc, rfl, i2⟩, i3, ?_⟩
  · unfold fluxEvaluationC compositeAdd
    rw [e1]
    show Option.map _ (compositeAdd dt u bops r1) = _
    rw [i1]
    rfl
  · intro c k hk
    rw [i4 c k hk, e5 c k hk]
    rfl

theorem createFluxC_holds (P : FlowParams) (hT : T.Valid nc n ne nv) (eta : Arr ℝ) {Bs : List Bnd} (hB : ∀ B ∈ Bs, B.Valid ne) :
    ∃ ops, createFluxC P T eta Bs = some ops ∧ OpsHold P T eta Bs ops := by
  obtain ⟨ops, h1, g, o, fl, cn, bops, h2, h3, h4, h5, h6⟩ := createFluxC_spec P hT eta hB
  refine ⟨ops, h1, g, o, fl, cn, bops, h2, h3, h4, h5, h6.imp ?_⟩
  rintro B op ⟨g, o, fl, cn, i1, i2, i3, -, i4⟩
  exact ⟨g, o, fl, cn, i1, i2, i3, i4⟩

theorem boundaryReady_values {B : Bnd} {g : Arr ℝ} {o : Offsets} (h : BoundaryReady T B g o) (a : Arr ℝ) :
    BoundaryReady T { B with values := a } g o := ⟨h.len, h.geom, h.set, h.qr⟩

theorem boundaryC_values (P : FlowParams) {B : Bnd} (hB : B.type = .dirichlet) (N : ℕ) (g : Arr ℝ) (o : Offsets) (eta : Arr ℝ) (fl cn : Arr Num) (a : Arr ℝ) :
    (boundaryC P B N g o eta fl cn).withIn 4 a = boundaryC P { B with values := a } N g o eta fl cn := by
  obtain ⟨ids, t, v⟩ := B
  obtain rfl : t = .dirichlet := hB
  rfl

theorem boundaryC_field (P : FlowParams) (B : Bnd) (N : ℕ) (g : Arr ℝ) (o : Offsets) (eta : Arr ℝ) (fl cn : Arr Num) :
    (B.type = .dirichlet → (boundaryC P B N g o eta fl cn).ins[4]? = some ⟨.offsets o.qr, 3, some B.values⟩) ∧
      (B.type ≠ .dirichlet → (boundaryC P B N g o eta fl cn).ins[4]? = none) := by
  obtain ⟨ids, t, v⟩ := B
  cases t
  · exact ⟨fun _ => rfl, fun h => absurd rfl h⟩
  · exact ⟨(fun h => by cases h), fun _ => rfl⟩
  · exact ⟨(fun h => by cases h), fun _ => rfl⟩

theorem ceedWrite_holds {P : FlowParams} {eta : Arr ℝ} {Bs : List Bnd} {w : ℕ → Arr ℝ} {ops : List COp} (h : OpsHold P T eta (withValues Bs w) ops) {b : ℕ}
    {B : Bnd} (hb : Bs[b]? = some B) (write : Arr ℝ → Option (Arr ℝ)) :
    (B.type ≠ .dirichlet → ceedWrite 1 4 ops b write = .error) ∧
    (B.type = .dirichlet → write (w b) = none → ceedWrite 1 4 ops b write = .ub) ∧
    (B.type = .dirichlet → ∀ a, write (w b) = some a → ∃ ops', ceedWrite 1 4 ops b write = .ok ops' ∧
      OpsHold P T eta (withValues Bs (Function.update w b a)) ops') := by
  obtain ⟨g, o, fl, cn, bops, hR, hf, hc, rfl, h2⟩ := h
  obtain ⟨op, ho, g', o', fl', cn', hR', hf', hc', rfl⟩ := forall₂_getElem? h2 (i := b) (by rw [withValues_get, hb]; rfl)
  have hg : (interiorC P T.numOwnedInternal g o eta fl cn :: bops)[1 + b]? = bops[b]? := by rw [Nat.add_comm]; rfl
  refine ⟨fun ht => ?_, fun ht hw => ?_, fun ht a hw => ?_⟩
  · unfold ceedWrite
    rw [hg, ho]
    dsimp only
    rw [(boundaryC_field P { B with values := w b } _ _ _ _ _ _).2 ht]
  · unfold ceedWrite
    rw [hg, ho]
    dsimp only
    rw [(boundaryC_field P { B with values := w b } _ _ _ _ _ _).1 ht]
    dsimp only
    rw [hw]
  · refine ⟨_, ?_, g, o, fl, cn, bops.set b (boundaryC P { B with values := a } (T.owned' B.ids B.ids.len).length g' o' eta fl' cn'), hR, hf, hc, rfl, ?_⟩
    · unfold ceedWrite
      rw [hg, ho]
      dsimp only
      rw [(boundaryC_field P { B with values := w b } _ _ _ _ _ _).1 ht]
      dsimp only
      rw [hw]
      dsimp only
      rw [boundaryC_values P (B := { B with values := w b }) ht, Nat.add_comm]
      rfl
    · rw [withValues_update Bs w hb a]
      exact forall₂_set h2 ⟨g', o', fl', cn', ⟨hR'.len, hR'.geom, hR'.set, hR'.qr⟩, hf', hc', rfl⟩

/-! ### The CEED backend with sediment -/

theorem boundaryT_values (sv : TSolver) (P : FlowParams) (nt : ℕ) (mem : Mem) {B : TBnd} (hB : B.type = .dirichlet) (N : ℕ) (g : Arr ℝ) (o : Offsets) (fl cn : Arr Num)
    (a : Arr ℝ) : (boundaryT sv P nt mem B N g o fl cn).withIn 2 a = boundaryT sv P nt mem { B with values := a } N g o fl cn := by
  obtain ⟨ids, t, v⟩ := B
  obtain rfl : t = .dirichlet := hB
  rfl

theorem boundaryT_field (sv : TSolver) (P : FlowParams) (nt : ℕ) (mem : Mem) (B : TBnd) (N : ℕ) (g : Arr ℝ) (o : Offsets) (fl cn : Arr Num) :
    (B.type = .dirichlet → (boundaryT sv P nt mem B N g o fl cn).ins[2]? = some ⟨.offsets o.qr, 3 + nt, some B.values⟩) ∧
      (B.type ≠ .dirichlet → (boundaryT sv P nt mem B N g o fl cn).ins[2]? = none) := by
  obtain ⟨ids, t, v⟩ := B
  cases t
  · exact ⟨fun _ => rfl, fun h => absurd rfl h⟩
  · exact ⟨(fun h => by cases h), fun _ => rfl⟩

theorem ceedWrite_holdsT {sv : TSolver} {P : FlowParams} {nt : ℕ} {mem : Mem} {Bs : List TBnd} {w : ℕ → Arr ℝ} {ops : List COp}
    (h : OpsReadyT sv P nt mem T (withTValues Bs w) ops) {b : ℕ} {B : TBnd} (hb : Bs[b]? = some B) (write : Arr ℝ → Option (Arr ℝ)) :
    (B.type ≠ .dirichlet → ceedWrite 1 2 ops b write = .error) ∧
    (B.type = .dirichlet → write (w b) = none → ceedWrite 1 2 ops b write = .ub) ∧
    (B.type = .dirichlet → ∀ a, write (w b) = some a → ∃ ops', ceedWrite 1 2 ops b write = .ok ops' ∧
      OpsReadyT sv P nt mem T (withTValues Bs (Function.update w b a)) ops') := by
  obtain ⟨g, o, fl, cn, bops, hR, hf, hc, rfl, h2⟩ := h
  obtain ⟨op, ho, g', o', fl', cn', hR', hf', hc', rfl⟩ := forall₂_getElem? h2 (i := b) (by rw [withTValues_get, hb]; rfl)
  have hg : (interiorT sv P nt T.numOwnedInternal g o fl cn :: bops)[1 + b]? = bops[b]? := by rw [Nat.add_comm]; rfl
  refine ⟨fun ht => ?_, fun ht hw => ?_, fun ht a hw => ?_⟩
  · unfold ceedWrite
    rw [hg, ho]
    dsimp only
    rw [(boundaryT_field sv P nt mem { B with values := w b } _ _ _ _ _).2 ht]
  · unfold ceedWrite
    rw [hg, ho]
    dsimp only
    rw [(boundaryT_field sv P nt mem { B with values := w b } _ _ _ _ _).1 ht]
    dsimp only
    rw [hw]
  · refine ⟨_, ?_, g, o, fl, cn, bops.set b (boundaryT sv P nt mem { B with values := a } (T.owned' B.ids B.ids.len).length g' o' fl' cn'), hR, hf, hc, rfl, ?_⟩
    · unfold ceedWrite
      rw [hg, ho]
      dsimp only
      rw [(boundaryT_field sv P nt mem { B with values := w b } _ _ _ _ _).1 ht]
      dsimp only
      rw [hw]
      dsimp only
      rw [boundaryT_values sv P nt mem (B := { B with values := w b }) ht, Nat.add_comm]
      rfl
    · rw [withTValues_update Bs w hb a]
      exact forall₂_set h2 ⟨g', o', fl', cn', ⟨hR'.len, hR'.geom, hR'.set, hR'.qr⟩, hf', hc', rfl⟩

/-! ### The PETSc backend -/

theorem withValues_forall {σ : Type} {R : σ → Bnd → Prop} (hR : ∀ s B a, R s B → R s { B with values := a }) {Bs : List Bnd} {w w' : ℕ → Arr ℝ} {l : List σ}
    (h : List.Forall₂ R l (withValues Bs w)) : List.Forall₂ R l (withValues Bs w') := by
  rw [List.forall₂_iff_get] at h ⊢
  obtain ⟨l1, l2⟩ := h
  refine ⟨by rw [l1]; unfold withValues; simp, fun i i1 i2 => ?_⟩
  have i3 : i < (withValues Bs w).length := by unfold withValues at i2 ⊢; rw [List.length_mapIdx] at i2 ⊢; exact i2
  have hr := hR _ _ (w' i) (l2 i i1 i3)
  simpa [withValues] using hr

theorem withTValues_forall {σ : Type} {R : σ → TBnd → Prop} (hR : ∀ s B a, R s B → R s { B with values := a }) {Bs : List TBnd} {w w' : ℕ → Arr ℝ} {l : List σ}
    (h : List.Forall₂ R l (withTValues Bs w)) : List.Forall₂ R l (withTValues Bs w') := by
  rw [List.forall₂_iff_get] at h ⊢
  obtain ⟨l1, l2⟩ := h
  refine ⟨by rw [l1]; unfold withTValues; simp, fun i i1 i2 => ?_⟩
  have i3 : i < (withTValues Bs w).length := by unfold withTValues at i2 ⊢; rw [List.length_mapIdx] at i2 ⊢; exact i2
  have hr := hR _ _ (w' i) (l2 i i1 i3)
  simpa [withTValues] using hr

theorem petscMem_values {M : PetscMem} {C : PetscCfg} {T : Tables} {V : BedTables} {Bs : List Bnd} {w w' : ℕ → Arr ℝ} {nc : ℕ}
    (h : M.Ready C T V (withValues Bs w) nc) : M.Ready C T V (withValues Bs w') nc := by
  obtain ⟨⟨h1, h2, h3⟩, h4⟩ := h
  exact ⟨⟨h1, h2, withValues_forall (fun s B a hr => ⟨hr.1, hr.2, hr.3, hr.4, hr.5, hr.6, hr.7⟩) h3⟩, h4⟩

theorem tracerMem_values {M : TFluxMem} {nt : ℕ} {T : Tables} {Bs : List TBnd} {w w' : ℕ → Arr ℝ} (h : M.Ready nt T (withTValues Bs w)) :
    M.Ready nt T (withTValues Bs w') := by
  obtain ⟨h1, h2, h3⟩ := h
  exact ⟨h1, h2, withTValues_forall (fun s B a hr => ⟨hr.1, hr.2, hr.3, hr.4, hr.5, hr.6⟩) h3⟩

theorem petscWrite_holds {σ : Type} {Bs : List Bnd} {w : ℕ → Arr ℝ} {s : σ × List Bnd} (h : s.2 = withValues Bs w) {b : ℕ} {B : Bnd} (hb : Bs[b]? = some B)
    (write : Arr ℝ → Option (Arr ℝ)) :
    (write (w b) = none → petscWrite s b write = .ub) ∧
    ∀ a, write (w b) = some a → petscWrite s b write = .ok (s.1, withValues Bs (Function.update w b a)) := by
  constructor
  · intro hw
    unfold petscWrite
    rw [h, withValues_get, hb]
    show (match write (w b) with | none => Res.ub | some a => _) = _
    rw [hw]
  · intro a hw
    unfold petscWrite
    rw [h, withValues_get, hb]
    show (match write (w b) with | none => Res.ub | some a => _) = _
    rw [hw, withValues_update Bs w hb a]

theorem petscTWrite_holds {σ : Type} {Bs : List TBnd} {w : ℕ → Arr ℝ} {s : σ × List TBnd} (h : s.2 = withTValues Bs w) {b : ℕ} {B : TBnd} (hb : Bs[b]? = some B)
    (write : Arr ℝ → Option (Arr ℝ)) :
    (write (w b) = none → petscTWrite s b write = .ub) ∧
    ∀ a, write (w b) = some a → petscTWrite s b write = .ok (s.1, withTValues Bs (Function.update w b a)) := by
  constructor
  · intro hw
    unfold petscTWrite
    rw [h, withTValues_get, hb]
    show (match write (w b) with | none => Res.ub | some a => _) = _
    rw [hw]
  · intro a hw
    unfold petscTWrite
    rw [h, withTValues_get, hb]
    show (match write (w b) with | none => Res.ub | some a => _) = _
    rw [hw, withTValues_update Bs w hb a]

end RDy
