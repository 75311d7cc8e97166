import Verif.Lemmas.BatchedTracer
import Verif.Model.Operator
import Mathlib.Data.List.Forall2

/-! Lemmas about all flux operators together: whole evaluations, and the models that treat one edge after the other. -/

namespace RDy

/-! ### Shallow water -/

/-- The memory of all flux operators has its lengths and holds the normals. -/
structure FluxMem.Ready (M : FluxMem) (T : Tables) (Bs : List Bnd) : Prop where
  sized : M.interior.Sized T.internal.len
  normals : M.interior.HasNormals T
  bnds : List.Forall₂ (fun s B => BState.Ready s T B) M.bnds Bs

/-- entry `(o, i)` after the edges of the boundaries, starting with `a` -/
noncomputable def bSum (P : FlowParams) (T : Tables) (Bs : List Bnd) (u : Arr ℝ) (o i : ℕ) (a : Num) : Num :=
  Bs.foldl (fun (a : Num) (B : Bnd) =>
    (List.range B.ids.len).foldl (fun (a : Num) (e : ℕ) => a.add (bEdgeTerm P T B u o i e)) a) a

/-- What an operator of a boundary leaves: the fluxes of the edges of owned cells, and the accumulated fluxes. -/
def BStepSpec (P : FlowParams) (T : Tables) (dt : ℝ) (u : Arr ℝ) (B : Bnd) (s s' : BState) : Prop :=
  ∀ e < B.ids.len, T.owned.val (T.leftOf (B.ids.val e)) = true → ∀ i < 3,
    s'.fluxes.val (3 * e + i) = (roeFlux P.g (bStates P T B u e).1 (bStates P T B u e).2 (T.sn.val (B.ids.val e))
      (T.cn.val (B.ids.val e))).map (fun F => F.1.comp i) ∧
    s'.accum.val (3 * e + i) = (s.accum.val (3 * e + i)).add ((s'.fluxes.val (3 * e + i)).scale dt)

theorem applyBoundariesB_spec {P : FlowParams} {T : Tables} {nc n ne : ℕ} (hT : T.Valid nc n ne) {dt : ℝ} {u : Arr ℝ}
    (hu : u.len = 3 * nc) : ∀ {Bs : List Bnd} {ss : List BState} {f : Arr Num}, (∀ B ∈ Bs, B.Valid ne) →
    List.Forall₂ (fun s B => BState.Ready s T B) ss Bs → f.len = 3 * n →
    ∃ ss' f', applyBoundariesB P T dt u Bs ss f = some (ss', f') ∧ List.Forall₂ (fun s B => BState.Ready s T B) ss' Bs ∧
      f'.len = f.len ∧ (∀ o i, i < 3 → f'.val (3 * o + i) = bSum P T Bs u o i (f.val (3 * o + i))) ∧
      ∀ (k : ℕ) (B : Bnd) (s : BState), Bs[k]? = some B → ss[k]? = some s → ∃ s', ss'[k]? = some s' ∧ BStepSpec P T dt u B s s' := by
  intro Bs
  induction Bs with
  | nil =>
    intro ss f _ hs hf
    cases hs
    exact ⟨[], f, rfl, List.Forall₂.nil, rfl, fun _ _ _ => rfl, fun k B s h => by simp at h⟩
  | cons B Bs ih =>
    intro ss f hB hs hf
    cases hs with
    | @cons s _ ss _ h1 h2 =>
      obtain ⟨s', f1, a1, a2, a3, a4, a5⟩ := applyBoundaryB_spec (P := P) (dt := dt) hT (hB B (by simp)) h1 hu hf
      obtain ⟨ss', f2, b1, b2, b3, b4, b5⟩ := ih (fun B' hB' => hB B' (by simp [hB'])) h2 (a3.trans hf)
      refine ⟨s' :: ss', f2, ?_, List.Forall₂.cons a2 b2, b3.trans a3, ?_, ?_⟩
      · show (applyBoundaryB P T B dt s u f).bind _ = _
        rw [a1]
        show (applyBoundariesB P T dt u Bs ss f1).map _ = _
        rw [b1]
        rfl
      · intro o i hi
        rw [b4 o i hi, a4 o i hi]
        rfl
      · intro k B' s0 hk hs0
        cases k with
        | zero =>
          simp only [List.getElem?_cons_zero, Option.some.injEq] at hk hs0
          subst hk; subst hs0
          exact ⟨s', rfl, fun e he hw i hi => ⟨a5.1 e he hw i hi, a5.2 _⟩⟩
        | succ k => exact b5 k B' s0 (by simpa using hk) (by simpa using hs0)

/-- entry `(o, i)` of the right-hand side, edge by edge -/
noncomputable def fluxEntry (P : FlowParams) (T : Tables) (Bs : List Bnd) (u : Arr ℝ) (o i : ℕ) : Num :=
  bSum P T Bs u o i ((List.range T.internal.len).foldl (fun (a : Num) (e : ℕ) => a.add (edgeTerm P T u o i e)) (some 0))

theorem Arr.ext_flat {nd n : ℕ} (hnd : 0 < nd) {f g : Arr Num} (hf : f.len = nd * n) (hg : g.len = nd * n)
    (h : ∀ o i, i < nd → f.val (nd * o + i) = g.val (nd * o + i)) : f = g := by
  rcases f with ⟨lf, vf⟩
  rcases g with ⟨lg, vg⟩
  simp only at hf hg h
  subst hf
  rw [hg]
  congr 1
  funext j
  have := h (j / nd) (j % nd) (Nat.mod_lt _ hnd)
  rwa [Nat.div_add_mod] at this

theorem fluxesB_spec {P : FlowParams} {T : Tables} {nc n ne : ℕ} (hT : T.Valid nc n ne) {Bs : List Bnd}
    (hB : ∀ B ∈ Bs, B.Valid ne) {dt : ℝ} {u : Arr ℝ} (hu : u.len = 3 * nc) {M : FluxMem} (hM : M.Ready T Bs) :
    ∃ M' f, fluxesB P T Bs n dt M u = some (M', f) ∧ M'.Ready T Bs ∧ f.len = 3 * n ∧
      (∀ o i, i < 3 → f.val (3 * o + i) = fluxEntry P T Bs u o i) ∧
      ∀ (k : ℕ) (B : Bnd) (s : BState), Bs[k]? = some B → M.bnds[k]? = some s → ∃ s', M'.bnds[k]? = some s' ∧ BStepSpec P T dt u B s s' := by
  obtain ⟨b', f1, a1, a2, a3, a4, a5⟩ := applyInteriorB_spec (P := P) hT hu hM.sized hM.normals
    (f := Arr.calloc (3 * n) (some 0)) rfl
  obtain ⟨ss', f2, b1, b2, b3, b4, b5⟩ := applyBoundariesB_spec (P := P) (dt := dt) hT hu hB hM.bnds (f := f1) a4
  refine ⟨⟨b', ss'⟩, f2, ?_, ⟨a2, a3, b2⟩, b3.trans a4, ?_, b5⟩
  · unfold fluxesB
    rw [a1]
    show (applyBoundariesB P T dt u Bs M.bnds f1).map _ = _
    rw [b1]
    rfl
  · intro o i hi
    rw [b4 o i hi, a5 o i hi]
    rfl

/-! ### The models that treat one edge after the other -/

/-- The mesh of `Operator.lean` that the tables describe. -/
noncomputable def meshOf (T : Tables) (Bs : List Bnd) (nc : ℕ) : PMesh where
  numCells := nc
  area := T.area.val
  owned := T.owned.val
  l2o := T.l2o.val
  internal := (List.range T.internal.len).map fun e =>
    ⟨T.leftOf (T.internal.val e), T.rightOf (T.internal.val e), T.elen.val (T.internal.val e), T.sn.val (T.internal.val e),
      T.cn.val (T.internal.val e)⟩
  boundary := Bs.flatMap fun B => (List.range B.ids.len).map fun e =>
    ⟨T.leftOf (B.ids.val e), T.elen.val (B.ids.val e), T.sn.val (B.ids.val e), T.cn.val (B.ids.val e), B.cond e⟩
  dzdx := fun _ => 0
  dzdy := fun _ => 0
  zc := fun _ => 0

theorem comp_add (a b : Flux) (i : ℕ) : (a.add b).comp i = a.comp i + b.comp i := by
  unfold Flux.comp Flux.add; split_ifs <;> rfl

theorem comp_smul (s : ℝ) (a : Flux) (i : ℕ) : (a.smul s).comp i = a.comp i * s := by
  unfold Flux.comp Flux.smul; split_ifs <;> rfl

theorem addOwned_comp (pm : PMesh) (f : ℕ → Flux) (c : ℕ) (F : Flux) (s : ℝ) (o i : ℕ) :
    (some ((addOwned pm f c (F.smul s) o).comp i) : Num) =
      Num.add (some ((f o).comp i)) (recv (pm.owned c) (pm.l2o c) o (Num.scale (some (F.comp i)) s)) := by
  unfold addOwned recv
  by_cases hw : pm.owned c = true
  · rw [if_pos hw]
    unfold addAt
    by_cases h : o = pm.l2o c
    · rw [if_pos h, if_pos ⟨hw, h.symm⟩, comp_add, comp_smul]; rfl
    · rw [if_neg h, if_neg (fun q => h q.2.symm), Num.add_zero']
  · rw [if_neg hw, if_neg (fun q => hw q.1), Num.add_zero']

theorem foldlM_cons_some {α σ : Type} {step : σ → α → Option σ} {a : α} {l : List α} {s t : σ}
    (h : (a :: l).foldlM step s = some t) : ∃ s', step s a = some s' ∧ l.foldlM step s' = some t := by
  rw [List.foldlM_cons] at h
  exact Option.bind_eq_some_iff.mp h

theorem applyInterior_entry (P : FlowParams) (T : Tables) (Bs : List Bnd) (nc : ℕ) (u : Arr ℝ) (o i : ℕ) :
    ∀ (l : List ℕ) (f g : ℕ → Flux),
      (l.map fun e => (⟨T.leftOf (T.internal.val e), T.rightOf (T.internal.val e), T.elen.val (T.internal.val e),
        T.sn.val (T.internal.val e), T.cn.val (T.internal.val e)⟩ : IEdge)).foldlM
          (interiorEdge P (meshOf T Bs nc) (stateAt u)) f = some g →
      l.foldl (fun (a : Num) (e : ℕ) => a.add (edgeTerm P T u o i e)) (some ((f o).comp i)) = some ((g o).comp i) := by
  intro l
  induction l with
  | nil => intro f g h; cases h; rfl
  | cons e l ih =>
    intro f g h
    obtain ⟨f', h1, h2⟩ := foldlM_cons_some h
    rw [List.foldl_cons, ← ih f' g h2]
    congr 1
    unfold interiorEdge at h1
    dsimp only at h1
    unfold edgeTerm
    cases hr : T.rightOf (T.internal.val e) with
    | none =>
      rw [hr] at h1
      cases h1
      exact Num.add_zero' _
    | some r =>
      rw [hr] at h1
      dsimp only at h1 ⊢
      obtain ⟨F, hF, hf'⟩ := Option.map_eq_some_iff.mp h1
      rw [hF, ← hf']
      unfold addBoth
      rw [addOwned_comp, addOwned_comp, Num.add_assoc']
      rfl

theorem applyBoundary_entry_one (P : FlowParams) (T : Tables) (Bs : List Bnd) (nc : ℕ) (u : Arr ℝ) (o i : ℕ) (B : Bnd) :
    ∀ (l : List ℕ) (f g : ℕ → Flux),
      (l.map fun e => (⟨T.leftOf (B.ids.val e), T.elen.val (B.ids.val e), T.sn.val (B.ids.val e), T.cn.val (B.ids.val e),
        B.cond e⟩ : BEdge)).foldlM (boundaryEdge P (meshOf T Bs nc) (stateAt u)) f = some g →
      l.foldl (fun (a : Num) (e : ℕ) => a.add (bEdgeTerm P T B u o i e)) (some ((f o).comp i)) = some ((g o).comp i) := by
  intro l
  induction l with
  | nil => intro f g h; cases h; rfl
  | cons e l ih =>
    intro f g h
    obtain ⟨f', h1, h2⟩ := foldlM_cons_some h
    rw [List.foldl_cons, ← ih f' g h2]
    congr 1
    unfold boundaryEdge at h1
    dsimp only at h1
    unfold bEdgeTerm
    by_cases hw : T.owned.val (T.leftOf (B.ids.val e)) = true
    · rw [if_pos (show (meshOf T Bs nc).owned _ = true from hw)] at h1
      obtain ⟨F, hF, hf'⟩ := Option.map_eq_some_iff.mp h1
      rw [← hf', addOwned_comp]
      unfold bStates
      rw [hF]
      rfl
    · rw [if_neg (show ¬ (meshOf T Bs nc).owned _ = true from hw)] at h1
      cases h1
      unfold recv
      rw [if_neg (fun q => hw q.1), Num.add_zero']

theorem foldlM_append_some {α σ : Type} {step : σ → α → Option σ} {l l' : List α} {s t : σ}
    (h : (l ++ l').foldlM step s = some t) : ∃ s', l.foldlM step s = some s' ∧ l'.foldlM step s' = some t := by
  rw [List.foldlM_append] at h
  exact Option.bind_eq_some_iff.mp h

theorem applyBoundary_entry (P : FlowParams) (T : Tables) (Bs' : List Bnd) (nc : ℕ) (u : Arr ℝ) (o i : ℕ) :
    ∀ (Bs : List Bnd) (f g : ℕ → Flux),
      (Bs.flatMap fun B => (List.range B.ids.len).map fun e =>
        (⟨T.leftOf (B.ids.val e), T.elen.val (B.ids.val e), T.sn.val (B.ids.val e), T.cn.val (B.ids.val e), B.cond e⟩ : BEdge)).foldlM
          (boundaryEdge P (meshOf T Bs' nc) (stateAt u)) f = some g →
      bSum P T Bs u o i (some ((f o).comp i)) = some ((g o).comp i) := by
  intro Bs
  induction Bs with
  | nil => intro f g h; cases h; rfl
  | cons B Bs ih =>
    intro f g h
    rw [List.flatMap_cons] at h
    obtain ⟨f', h1, h2⟩ := foldlM_append_some h
    rw [← ih f' g h2, ← applyBoundary_entry_one P T Bs' nc u o i B _ f f' h1]
    rfl

theorem fluxEntry_eq {P : FlowParams} {T : Tables} {Bs : List Bnd} {nc : ℕ} {u : Arr ℝ} {g : ℕ → Flux}
    (h : (applyInterior P (meshOf T Bs nc) (stateAt u) fun _ => Flux.zero).bind
      (applyBoundary P (meshOf T Bs nc) (stateAt u)) = some g) (o i : ℕ) :
    fluxEntry P T Bs u o i = some ((g o).comp i) := by
  obtain ⟨f1, h1, h2⟩ := Option.bind_eq_some_iff.mp h
  unfold fluxEntry
  rw [← applyBoundary_entry P T Bs nc u o i Bs f1 g h2, ← applyInterior_entry P T Bs nc u o i _ _ f1 h1]
  congr 2
  exact congrArg some (comp_zero i).symm

/-! ### With tracers -/

/-- The memory of all flux operators with tracers has its lengths and holds the normals. -/
structure TFluxMem.Ready (M : TFluxMem) (nt : ℕ) (T : Tables) (Bs : List TBnd) : Prop where
  sized : M.interior.Sized T.internal.len nt
  normals : M.interior.HasNormals T
  bnds : List.Forall₂ (fun s B => TBState.Ready s nt T B) M.bnds Bs

/-- entry `(o, i)` after the edges of the boundaries, starting with `a` -/
noncomputable def tbSum (sv : TSolver) (P : FlowParams) (nt : ℕ) (T : Tables) (Bs : List TBnd) (u : Arr ℝ) (o i : ℕ) (a : Num) : Num :=
  Bs.foldl (fun (a : Num) (B : TBnd) =>
    (List.range B.ids.len).foldl (fun (a : Num) (e : ℕ) => a.add (tbEdgeTerm sv P nt T B u o i e)) a) a

/-- What an operator of a boundary leaves: the fluxes of the edges of owned cells. -/
def TBStepSpec (sv : TSolver) (P : FlowParams) (nt : ℕ) (T : Tables) (u : Arr ℝ) (B : TBnd) (s' : TBState) : Prop :=
  ∀ e < B.ids.len, T.owned.val (T.leftOf (B.ids.val e)) = true → ∀ i < 3 + nt,
    s'.fluxes.val ((3 + nt) * e + i) = (tracerFlux sv P.g nt (tbLeft P nt T B u e) (tbRight P nt T B u e)
      (T.sn.val (B.ids.val e)) (T.cn.val (B.ids.val e))).map fun F => F i

theorem applyTracerBoundariesB_spec {sv : TSolver} {P : FlowParams} {T : Tables} {nc n ne nt : ℕ}
    (hnt : 3 + nt ≤ maxFieldComponents) (hT : T.Valid nc n ne) {u : Arr ℝ}
    (hu : u.len = (3 + nt) * nc) : ∀ {Bs : List TBnd} {ss : List TBState} {f : Arr Num}, (∀ B ∈ Bs, B.Valid ne nt) →
    List.Forall₂ (fun s B => TBState.Ready s nt T B) ss Bs → f.len = (3 + nt) * n →
    ∃ ss' f', applyTracerBoundariesB sv P nt T u Bs ss f = some (ss', f') ∧
      List.Forall₂ (fun s B => TBState.Ready s nt T B) ss' Bs ∧ f'.len = f.len ∧
      (∀ o i, i < 3 + nt → f'.val ((3 + nt) * o + i) = tbSum sv P nt T Bs u o i (f.val ((3 + nt) * o + i))) ∧
      ∀ (k : ℕ) (B : TBnd), Bs[k]? = some B → ∃ s', ss'[k]? = some s' ∧ TBStepSpec sv P nt T u B s' := by
  intro Bs
  induction Bs with
  | nil =>
    intro ss f _ hs hf
    cases hs
    exact ⟨[], f, rfl, List.Forall₂.nil, rfl, fun _ _ _ => rfl, fun k B h => by simp at h⟩
  | cons B Bs ih =>
    intro ss f hB hs hf
    cases hs with
    | @cons s _ ss _ h1 h2 =>
      obtain ⟨s', f1, a1, a2, a3, a4, a5⟩ := applyTracerBoundaryB_spec (sv := sv) (P := P) hnt hT (hB B (by simp)) h1 hu hf
      obtain ⟨ss', f2, b1, b2, b3, b4, b5⟩ := ih (fun B' hB' => hB B' (by simp [hB'])) h2 (a3.trans hf)
      refine ⟨s' :: ss', f2, ?_, List.Forall₂.cons a2 b2, b3.trans a3, ?_, ?_⟩
      · show (applyTracerBoundaryB sv P nt T B s u f).bind _ = _
        rw [a1]
        show (applyTracerBoundariesB sv P nt T u Bs ss f1).map _ = _
        rw [b1]
        rfl
      · intro o i hi
        rw [b4 o i hi, a4 o i hi]
        rfl
      · intro k B' hk
        cases k with
        | zero =>
          simp only [List.getElem?_cons_zero, Option.some.injEq] at hk
          subst hk
          exact ⟨s', rfl, a5⟩
        | succ k => exact b5 k B' (by simpa using hk)

/-- entry `(o, i)` of the right-hand side with tracers, edge by edge -/
noncomputable def tFluxEntry (sv : TSolver) (P : FlowParams) (nt : ℕ) (T : Tables) (Bs : List TBnd) (u : Arr ℝ) (o i : ℕ) : Num :=
  tbSum sv P nt T Bs u o i
    ((List.range T.internal.len).foldl (fun (a : Num) (e : ℕ) => a.add (tEdgeTerm sv P nt T u o i e)) (some 0))

theorem tracerFluxesB_spec {sv : TSolver} {P : FlowParams} {T : Tables} {nc n ne nt : ℕ}
    (hnt : 3 + nt ≤ maxFieldComponents) (hT : T.Valid nc n ne) {Bs : List TBnd}
    (hB : ∀ B ∈ Bs, B.Valid ne nt) {u : Arr ℝ} (hu : u.len = (3 + nt) * nc) {M : TFluxMem} (hM : M.Ready nt T Bs) :
    ∃ M' f, tracerFluxesB sv P nt T Bs n M u = some (M', f) ∧ M'.Ready nt T Bs ∧ f.len = (3 + nt) * n ∧
      (∀ o i, i < 3 + nt → f.val ((3 + nt) * o + i) = tFluxEntry sv P nt T Bs u o i) ∧
      ∀ (k : ℕ) (B : TBnd), Bs[k]? = some B → ∃ s', M'.bnds[k]? = some s' ∧ TBStepSpec sv P nt T u B s' := by
  obtain ⟨b', f1, a1, a2, a3, a4, a5⟩ := applyTracerInteriorB_spec (sv := sv) (P := P) hnt hT hu hM.sized hM.normals
    (f := Arr.calloc ((3 + nt) * n) (some 0)) rfl
  obtain ⟨ss', f2, b1, b2, b3, b4, b5⟩ := applyTracerBoundariesB_spec (sv := sv) (P := P) hnt hT hu hB hM.bnds (f := f1) a4
  refine ⟨⟨b', ss'⟩, f2, ?_, ⟨a2, a3, b2⟩, b3.trans a4, ?_, b5⟩
  · unfold tracerFluxesB
    rw [a1]
    show (applyTracerBoundariesB sv P nt T u Bs M.bnds f1).map _ = _
    rw [b1]
    rfl
  · intro o i hi
    rw [b4 o i hi, a5 o i hi]
    rfl

/-- The edges of the boundaries as `Tracer.lean` has them. -/
noncomputable def tbEdgesOf (nt : ℕ) (T : Tables) (Bs : List TBnd) : List TBEdge :=
  Bs.flatMap fun B => (List.range B.ids.len).map fun e =>
    ⟨T.leftOf (B.ids.val e), T.elen.val (B.ids.val e), T.sn.val (B.ids.val e), T.cn.val (B.ids.val e), B.cond nt e⟩

theorem addOwnedT_comp (pm : PMesh) (f : ℕ → ℕ → ℝ) (c : ℕ) (F : ℕ → ℝ) (s : ℝ) (o i : ℕ) :
    (some (addOwnedT pm f c F s o i) : Num) =
      Num.add (some (f o i)) (recv (pm.owned c) (pm.l2o c) o (Num.scale (some (F i)) s)) := by
  unfold addOwnedT recv
  by_cases hw : pm.owned c = true
  · rw [if_pos hw]
    by_cases h : o = pm.l2o c
    · rw [if_pos h, if_pos ⟨hw, h.symm⟩]; rfl
    · rw [if_neg h, if_neg (fun q => h q.2.symm), Num.add_zero']
  · rw [if_neg hw, if_neg (fun q => hw q.1), Num.add_zero']

theorem tracerInterior_entry (sv : TSolver) (P : FlowParams) (nt : ℕ) (T : Tables) (nc : ℕ) (u : Arr ℝ) (o i : ℕ) :
    ∀ (l : List ℕ) (f g : ℕ → ℕ → ℝ),
      (l.map fun e => (⟨T.leftOf (T.internal.val e), T.rightOf (T.internal.val e), T.elen.val (T.internal.val e),
        T.sn.val (T.internal.val e), T.cn.val (T.internal.val e)⟩ : IEdge)).foldlM
          (tracerEdge sv P nt (meshOf T [] nc) (tStateAt nt u)) f = some g →
      l.foldl (fun (a : Num) (e : ℕ) => a.add (tEdgeTerm sv P nt T u o i e)) (some (f o i)) = some (g o i) := by
  intro l
  induction l with
  | nil => intro f g h; cases h; rfl
  | cons e l ih =>
    intro f g h
    obtain ⟨f', h1, h2⟩ := foldlM_cons_some h
    rw [List.foldl_cons, ← ih f' g h2]
    congr 1
    unfold tracerEdge at h1
    dsimp only at h1
    unfold tEdgeTerm
    cases hr : T.rightOf (T.internal.val e) with
    | none =>
      rw [hr] at h1
      cases h1
      exact Num.add_zero' _
    | some r =>
      rw [hr] at h1
      dsimp only at h1 ⊢
      obtain ⟨F, hF, hf'⟩ := Option.map_eq_some_iff.mp h1
      rw [hF, ← hf', addOwnedT_comp, addOwnedT_comp, Num.add_assoc']
      rfl

theorem tracerBoundary_entry_one (sv : TSolver) (P : FlowParams) (nt : ℕ) (T : Tables) (nc : ℕ) (u : Arr ℝ) (o i : ℕ) (B : TBnd) :
    ∀ (l : List ℕ) (f g : ℕ → ℕ → ℝ),
      (l.map fun e => (⟨T.leftOf (B.ids.val e), T.elen.val (B.ids.val e), T.sn.val (B.ids.val e), T.cn.val (B.ids.val e),
        B.cond nt e⟩ : TBEdge)).foldlM (tracerBEdge sv P nt (meshOf T [] nc) (tStateAt nt u)) f = some g →
      l.foldl (fun (a : Num) (e : ℕ) => a.add (tbEdgeTerm sv P nt T B u o i e)) (some (f o i)) = some (g o i) := by
  intro l
  induction l with
  | nil => intro f g h; cases h; rfl
  | cons e l ih =>
    intro f g h
    obtain ⟨f', h1, h2⟩ := foldlM_cons_some h
    rw [List.foldl_cons, ← ih f' g h2]
    congr 1
    unfold tracerBEdge at h1
    dsimp only at h1
    unfold tbEdgeTerm
    by_cases hw : T.owned.val (T.leftOf (B.ids.val e)) = true
    · rw [if_pos (show (meshOf T [] nc).owned _ = true from hw)] at h1
      obtain ⟨F, hF, hf'⟩ := Option.map_eq_some_iff.mp h1
      rw [← hf', addOwnedT_comp]
      unfold tbRight tbLeft
      rw [hF]
      rfl
    · rw [if_neg (show ¬ (meshOf T [] nc).owned _ = true from hw)] at h1
      cases h1
      unfold recv
      rw [if_neg (fun q => hw q.1), Num.add_zero']

theorem tracerBoundary_entry (sv : TSolver) (P : FlowParams) (nt : ℕ) (T : Tables) (nc : ℕ) (u : Arr ℝ) (o i : ℕ) :
    ∀ (Bs : List TBnd) (f g : ℕ → ℕ → ℝ),
      (tbEdgesOf nt T Bs).foldlM (tracerBEdge sv P nt (meshOf T [] nc) (tStateAt nt u)) f = some g →
      tbSum sv P nt T Bs u o i (some (f o i)) = some (g o i) := by
  intro Bs
  induction Bs with
  | nil => intro f g h; cases h; rfl
  | cons B Bs ih =>
    intro f g h
    unfold tbEdgesOf at h
    rw [List.flatMap_cons] at h
    obtain ⟨f', h1, h2⟩ := foldlM_append_some h
    rw [← ih f' g h2, ← tracerBoundary_entry_one sv P nt T nc u o i B _ f f' h1]
    rfl

theorem tFluxEntry_eq {sv : TSolver} {P : FlowParams} {nt : ℕ} {T : Tables} {Bs : List TBnd} {nc : ℕ} {u : Arr ℝ} {g : ℕ → ℕ → ℝ}
    (h : tracerDivergence sv P nt (meshOf T [] nc) (tbEdgesOf nt T Bs) (tStateAt nt u) = some g) (o i : ℕ) :
    tFluxEntry sv P nt T Bs u o i = some (g o i) := by
  obtain ⟨f1, h1, h2⟩ := Option.bind_eq_some_iff.mp h
  unfold tFluxEntry
  rw [← tracerBoundary_entry sv P nt T nc u o i Bs f1 g h2, ← tracerInterior_entry sv P nt T nc u o i _ _ f1 h1]

end RDy
