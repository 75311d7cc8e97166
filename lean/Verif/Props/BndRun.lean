import Verif.Lemmas.BndRun
import Verif.Props.CeedTOp
import Verif.Props.PetscRhs
import Verif.Props.ApiRun
import Mathlib.Tactic

/-!
C119: runs of calls that give Dirichlet values to boundaries, and evaluations. Whatever the order of the calls, every evaluation uses at every edge of every boundary the
values that were given last, component by component (0 if none were given), with both backends.
-/

namespace RDy

/-! ### Specification -/

/-- What a call gives to component `k` of edge `e` of boundary `b`: depth and momenta are components 0 to 2, then come the classes of sediment, salinity, temperature. -/
def BndCall.gives (p : Phys) (b e k : ℕ) : BndCall → Option ℝ
  | .flow b' _ _ v => if b' = b ∧ k < 3 then some (v.val (3 * e + k)) else none
  | .sediment b' _ _ v => if b' = b ∧ 3 ≤ k ∧ k < 3 + p.numClasses then some (v.val (p.numClasses * e + (k - 3))) else none
  | .salinity b' _ v => if b' = b ∧ k = 3 + p.numClasses then some (v.val e) else none
  | .temperature b' _ v => if b' = b ∧ k = 3 + p.numClasses + (if p.salinityOn then 1 else 0) then some (v.val e) else none
  | .evaluate _ _ => none

/-- What was given last to component `k` of edge `e` of boundary `b`; 0 if nothing was. -/
def lastValue (p : Phys) (calls : List BndCall) (b e k : ℕ) : ℝ := (calls.reverse.findSome? (BndCall.gives p b e k)).getD 0

/-- The values given last to a boundary with `numEdges` edges, as an array. -/
def givenValues (p : Phys) (calls : List BndCall) (b numEdges : ℕ) : Arr ℝ :=
  ⟨p.total * numEdges, fun i => if i < p.total * numEdges then lastValue p calls b (i / p.total) (i % p.total) else 0⟩

/-- The boundaries with the values given last. -/
def givenBnds (p : Phys) (calls : List BndCall) (Bs : List Bnd) : List Bnd :=
  Bs.mapIdx fun b B => { B with values := givenValues p calls b B.ids.len }

/-- The boundaries with the values given last, with tracers. -/
def givenTBnds (p : Phys) (calls : List BndCall) (Bs : List TBnd) : List TBnd :=
  Bs.mapIdx fun b B => { B with values := givenValues p calls b B.ids.len }

/-- The arrays of a call have the announced sizes; `N` is that of the solution. -/
def BndCall.Sized (N : ℕ) : BndCall → Prop
  | .flow _ ne m v => v.len = m * ne
  | .sediment _ ne m v => v.len = m * ne
  | .salinity _ ne v => v.len = ne
  | .temperature _ ne v => v.len = ne
  | .evaluate _ u => u.len = N

/-- The boundary of a call that gives values. -/
def BndCall.boundary : BndCall → ℤ
  | .flow b _ _ _ => b
  | .sediment b _ _ _ => b
  | .salinity b _ _ => b
  | .temperature b _ _ => b
  | .evaluate _ _ => 0

/-- The number of edges that the caller of a setter names. -/
def BndCall.edges : BndCall → ℕ
  | .flow _ ne _ _ => ne
  | .sediment _ ne _ _ => ne
  | .salinity _ ne _ => ne
  | .temperature _ ne _ => ne
  | .evaluate _ _ => 0

/-- The condition of a boundary that a setter is about; `none` if the boundary has none. -/
def BndCall.condition : BndCall → BndInfo → Option CondType
  | .flow _ _ _ _, i => some i.flow
  | .sediment _ _ _ _, i => i.sediment
  | .salinity _ _ _, i => i.salinity
  | .temperature _ _ _, i => i.temperature
  | .evaluate _ _, _ => none

/-- The number of values per edge is that of the physics of the run. -/
def BndCall.Fits (p : Phys) : BndCall → Prop
  | .flow _ _ m _ => m = 3
  | .sediment _ _ m _ => m = p.numClasses
  | .salinity _ _ _ => p.salinityOn = true
  | .temperature _ _ _ => p.heatOn = true
  | .evaluate _ _ => False

/-- A call that gives values to a boundary that there is, with its number of edges, where the quantity has a Dirichlet condition. -/
def BndCall.Correct (p : Phys) (infos : List BndInfo) (a : BndCall) : Prop :=
  a.Fits p ∧ 0 ≤ a.boundary ∧ ∃ i, infos[a.boundary.toNat]? = some i ∧ i.numEdges = a.edges ∧ a.condition i = some .dirichlet

/-! ### The values after a run -/

theorem lastValue_snoc (p : Phys) (l : List BndCall) (a : BndCall) (b e k : ℕ) :
    lastValue p (l ++ [a]) b e k = (a.gives p b e k).getD (lastValue p l b e k) := by
  unfold lastValue
  rw [List.reverse_append]
  show (List.findSome? _ (a :: l.reverse)).getD 0 = _
  rw [List.findSome?_cons]
  cases a.gives p b e k <;> rfl

theorem givenValues_nil (p : Phys) (b ne : ℕ) : givenValues p [] b ne = Arr.calloc (p.total * ne) 0 := by
  unfold givenValues Arr.calloc lastValue
  congr 1
  funext i
  simp

theorem givenValues_congr {p : Phys} {l : List BndCall} {a : BndCall} {b ne : ℕ} (h : ∀ e k, a.gives p b e k = none) :
    givenValues p (l ++ [a]) b ne = givenValues p l b ne := by
  unfold givenValues
  congr 1
  funext i
  rw [lastValue_snoc, h]
  rfl

/-- A setter that succeeded has written what it gives. -/
theorem given_update {p : Phys} {l : List BndCall} {a : BndCall} {lens : ℕ → ℕ} {off m b : ℕ} {v w : Arr ℝ} (ho : off + m ≤ p.total)
    (hg : ∀ b' e k, k < p.total → a.gives p b' e k = if b = b' ∧ off ≤ k ∧ k < off + m then some (v.val (m * e + (k - off))) else none)
    (hv : v.len = m * lens b) (hw : writeBoundary p.total off m (lens b) v (givenValues p l b (lens b)) = some w) :
    Function.update (fun b => givenValues p l b (lens b)) b w = fun b => givenValues p (l ++ [a]) b (lens b) := by
  have ht : 0 < p.total := by unfold Phys.total; omega
  funext b'
  by_cases hb : b' = b
  · subst hb
    rw [Function.update_self]
    obtain ⟨w', e1, e2, e3⟩ := writeBoundary_spec ho hv (a := givenValues p l b' (lens b')) rfl
    obtain rfl : w' = w := Option.some.inj (e1.symm.trans hw)
    have hl : w'.len = p.total * lens b' := e2
    have hval : w'.val = (givenValues p (l ++ [a]) b' (lens b')).val := by
      funext i
      rw [e3 i]
      unfold givenValues
      dsimp only
      rw [lastValue_snoc, hg b' _ _ (Nat.mod_lt _ ht)]
      have hlt : i < p.total * lens b' ↔ i / p.total < lens b' := by rw [Nat.div_lt_iff_lt_mul ht, Nat.mul_comm]
      by_cases hi : i < p.total * lens b'
      · rw [if_pos hi, if_pos hi]
        by_cases hk : off ≤ i % p.total ∧ i % p.total < off + m
        · rw [if_pos ⟨hlt.mp hi, hk⟩, if_pos ⟨rfl, hk⟩]
          rfl
        · rw [if_neg fun h => hk h.2, if_neg fun h => hk h.2]
          rfl
      · rw [if_neg hi, if_neg hi, if_neg fun h => hi (hlt.mpr h.1)]
    cases w'
    dsimp only at hl hval
    rw [hl, hval]
    rfl
  · rw [Function.update_of_ne hb]
    show givenValues p l b' (lens b') = givenValues p (l ++ [a]) b' (lens b')
    unfold givenValues
    congr 1
    funext i
    have hn : ¬ (b = b' ∧ off ≤ i % p.total ∧ i % p.total < off + m) := fun h => hb h.1.symm
    rw [lastValue_snoc, hg b' _ _ (Nat.mod_lt _ ht), if_neg hn]
    rfl

theorem setBnd_ok {σ : Type} {p : Phys} {infos : List BndInfo} {wr : σ → ℕ → (Arr ℝ → Option (Arr ℝ)) → Res σ} {kind : BndInfo → Option CondType}
    {off m : ℕ} {b : ℤ} {ne : ℕ} {v : Arr ℝ} {s s' : BndState σ} (h : setBnd p infos wr kind off m b ne v s = .ok s') :
    0 ≤ b ∧ s'.out = s.out ∧ ∃ i, infos[b.toNat]? = some i ∧ i.numEdges = ne ∧ kind i = some .dirichlet ∧
      wr s.mem b.toNat (writeBoundary p.total off m ne v) = .ok s'.mem := by
  unfold setBnd at h
  by_cases h1 : (infos.length : ℤ) ≤ b
  · rw [if_pos h1] at h; cases h
  rw [if_neg h1] at h
  by_cases h2 : b < 0
  · rw [if_pos h2] at h; cases h
  rw [if_neg h2] at h
  cases hi : infos[b.toNat]? with
  | none => rw [hi] at h; cases h
  | some i =>
    rw [hi] at h
    dsimp only at h
    by_cases h3 : i.numEdges = ne
    · rw [if_neg (not_not.mpr h3)] at h
      cases hk : kind i with
      | none => rw [hk] at h; cases h
      | some t =>
        rw [hk] at h
        dsimp only at h
        by_cases h4 : t = .dirichlet
        · rw [if_neg (not_not.mpr h4)] at h
          cases hw : wr s.mem b.toNat (writeBoundary p.total off m ne v) with
          | ok x =>
            rw [hw] at h
            cases h
            exact ⟨not_lt.mp h2, rfl, i, rfl, h3, by rw [hk, h4], rfl⟩
          | error => rw [hw] at h; cases h
          | ub => rw [hw] at h; cases h
        · rw [if_pos h4] at h; cases h
    · rw [if_pos h3] at h; cases h

section
variable {σ : Type} {p : Phys} {infos : List BndInfo} {wr : σ → ℕ → (Arr ℝ → Option (Arr ℝ)) → Res σ} {ev : σ → ℝ → Arr ℝ → Option (σ × Arr Num)}

/-- The relation `Rep` between what is kept and the values of boundaries is kept by writes and evaluations; `E` says for which values and solutions
evaluations are considered. -/
structure Keeps (infos : List BndInfo) (wr : σ → ℕ → (Arr ℝ → Option (Arr ℝ)) → Res σ) (ev : σ → ℝ → Arr ℝ → Option (σ × Arr Num))
    (lens : ℕ → ℕ) (Rep : σ → (ℕ → Arr ℝ) → Prop) (E : (ℕ → Arr ℝ) → Arr ℝ → Prop) : Prop where
  lens : ∀ b i, infos[b]? = some i → i.numEdges = lens b
  write : ∀ s w b f s', Rep s w → b < infos.length → wr s b f = .ok s' → ∃ a, f (w b) = some a ∧ Rep s' (Function.update w b a)
  eval : ∀ s w dt u r, Rep s w → E w u → ev s dt u = some r → Rep r.1 w

theorem step_keeps {lens : ℕ → ℕ} {Rep : σ → (ℕ → Arr ℝ) → Prop} {E : (ℕ → Arr ℝ) → Arr ℝ → Prop} (hK : Keeps infos wr ev lens Rep E) {N : ℕ}
    {l : List BndCall} {a : BndCall} (ha : a.Sized N) (hE : ∀ dt u, a = .evaluate dt u → E (fun b => givenValues p l b (lens b)) u) {s s' : BndState σ}
    (h0 : Rep s.mem fun b => givenValues p l b (lens b)) (hs : bndStep p infos wr ev s a = .ok s') :
    Rep s'.mem fun b => givenValues p (l ++ [a]) b (lens b) := by
  have key : ∀ {kind : BndInfo → Option CondType} {off m : ℕ} {b : ℤ} {ne : ℕ} {v : Arr ℝ}, off + m ≤ p.total → v.len = m * ne →
      (∀ b' e k, k < p.total → a.gives p b' e k = if b = (b' : ℤ) ∧ off ≤ k ∧ k < off + m then some (v.val (m * e + (k - off))) else none) →
      setBnd p infos wr kind off m b ne v s = .ok s' → Rep s'.mem fun b => givenValues p (l ++ [a]) b (lens b) := by
    intro kind off m b ne v ho hv hg h
    obtain ⟨h1, -, i, h2, h3, -, h4⟩ := setBnd_ok h
    have hn : ne = lens b.toNat := h3.symm.trans (hK.lens _ i h2)
    obtain ⟨w, h5, h6⟩ := hK.write _ _ _ _ _ h0 (List.getElem?_eq_some_iff.mp h2).1 h4
    rw [hn] at h5
    rw [given_update (b := b.toNat) ho (fun b' e k hk => ?_) (by rw [hv, hn]) h5] at h6
    · exact h6
    · rw [hg b' e k hk]
      have hb : (b = (b' : ℤ)) ↔ b.toNat = b' := by omega
      simp only [hb]
  cases a with
  | flow b ne m v =>
    unfold bndStep at hs
    dsimp only at hs
    by_cases hm : m = 3
    · subst hm
      rw [if_neg (not_not.mpr rfl)] at hs
      exact key (by unfold Phys.total; omega) ha (fun b' e k hk => by
        unfold BndCall.gives
        simp only [Nat.zero_le, true_and, Nat.zero_add, Nat.sub_zero]) hs
    · rw [if_pos hm] at hs; cases hs
  | sediment b ne m v =>
    unfold bndStep at hs
    dsimp only at hs
    by_cases hm : m = p.numClasses
    · subst hm
      rw [if_neg (not_not.mpr rfl)] at hs
      exact key (by unfold Phys.total; omega) ha (fun b' e k hk => by unfold BndCall.gives; rfl) hs
    · rw [if_pos hm] at hs; cases hs
  | salinity b ne v =>
    unfold bndStep at hs
    dsimp only at hs
    by_cases hm : p.salinityOn = false
    · rw [if_pos hm] at hs; cases hs
    · rw [if_neg hm] at hs
      have ho : p.salinityOn = true := by simpa using hm
      refine key (by unfold Phys.total; rw [ho]; simp) ((show v.len = ne from ha).trans (Nat.one_mul ne).symm) (fun b' e k hk => ?_) hs
      unfold BndCall.gives
      dsimp only
      by_cases hb : b = (b' : ℤ) ∧ k = 3 + p.numClasses
      · rw [if_pos hb, if_pos ⟨hb.1, by omega, by omega⟩, hb.2, Nat.sub_self, Nat.one_mul, Nat.add_zero]
      · rw [if_neg hb, if_neg fun h => hb ⟨h.1, by omega⟩]
  | temperature b ne v =>
    unfold bndStep at hs
    dsimp only at hs
    by_cases hm : p.heatOn = false
    · rw [if_pos hm] at hs; cases hs
    · rw [if_neg hm] at hs
      have ho : p.heatOn = true := by simpa using hm
      refine key (by unfold Phys.total; rw [ho]; simp) ((show v.len = ne from ha).trans (Nat.one_mul ne).symm) (fun b' e k hk => ?_) hs
      unfold BndCall.gives
      dsimp only
      generalize 3 + p.numClasses + (if p.salinityOn then 1 else 0) = q
      by_cases hb : b = (b' : ℤ) ∧ k = q
      · rw [if_pos hb, if_pos ⟨hb.1, by omega, by omega⟩, hb.2, Nat.sub_self, Nat.one_mul, Nat.add_zero]
      · rw [if_neg hb, if_neg fun h => hb ⟨h.1, by omega⟩]
  | evaluate dt u =>
    unfold bndStep at hs
    dsimp only at hs
    cases he : ev s.mem dt u with
    | none => rw [he] at hs; cases hs
    | some r =>
      rw [he] at hs
      cases hs
      have := hK.eval _ _ _ _ _ h0 (hE dt u rfl) he
      have hc : (fun b => givenValues p (l ++ [.evaluate dt u]) b (lens b)) = fun b => givenValues p l b (lens b) :=
        funext fun b => givenValues_congr fun _ _ => rfl
      rw [hc]
      exact this

/-- After a run, what is kept stands in the relation `Rep` to the values given last. -/
theorem run_keeps {lens : ℕ → ℕ} {Rep : σ → (ℕ → Arr ℝ) → Prop} {E : (ℕ → Arr ℝ) → Arr ℝ → Prop} (hK : Keeps infos wr ev lens Rep E) {N : ℕ} :
    ∀ (calls : List BndCall), (∀ a ∈ calls, a.Sized N) →
    (∀ l dt u, l ++ [.evaluate dt u] <+: calls → E (fun b => givenValues p l b (lens b)) u) → ∀ {m : σ} {s : BndState σ},
    Rep m (fun b => Arr.calloc (p.total * lens b) 0) → bndRun p infos wr ev calls ⟨m, []⟩ = .ok s → Rep s.mem fun b => givenValues p calls b (lens b) := by
  intro calls
  induction calls using List.reverseRecOn with
  | nil =>
    intro _ _ m s h0 hs
    unfold bndRun at hs
    cases hs
    simpa only [givenValues_nil] using h0
  | append_singleton l a ih =>
    intro hsz hE m s h0 hs
    obtain ⟨s1, h1, h2⟩ := bndRun_snoc.mp hs
    refine step_keeps hK (hsz a (by simp)) (fun dt u hu => ?_) (ih (fun a' h' => hsz a' (by simp [h'])) (fun l' dt u h' => ?_) h0 h1) h2
    · subst hu
      exact hE l dt u List.prefix_rfl
    · exact hE l' dt u (h'.trans (List.prefix_append _ _))

end

/-! ### The CEED backend, flow only -/

theorem givenBnds_eq (p : Phys) (calls : List BndCall) (Bs : List Bnd) :
    givenBnds p calls Bs = withValues Bs fun b => givenValues p calls b ((Bs[b]?.map fun B => B.ids.len).getD 0) := by
  apply List.ext_getElem?
  intro b
  rw [withValues_get]
  unfold givenBnds
  rw [List.getElem?_mapIdx]
  cases Bs[b]? <;> rfl

theorem givenTBnds_eq (p : Phys) (calls : List BndCall) (Bs : List TBnd) :
    givenTBnds p calls Bs = withTValues Bs fun b => givenValues p calls b ((Bs[b]?.map fun B => B.ids.len).getD 0) := by
  apply List.ext_getElem?
  intro b
  rw [withTValues_get]
  unfold givenTBnds
  rw [List.getElem?_mapIdx]
  cases Bs[b]? <;> rfl

theorem fresh_eq {p : Phys} (hp : p.total = 3) (Bs : List Bnd) :
    Bs.map Bnd.fresh = withValues Bs fun b => Arr.calloc (p.total * (Bs[b]?.map fun B => B.ids.len).getD 0) 0 := by
  apply List.ext_getElem?
  intro b
  rw [withValues_get, List.getElem?_map]
  cases Bs[b]? with
  | none => rfl
  | some B => rw [hp]; rfl

theorem freshT_eq {p : Phys} {nt : ℕ} (hp : p.total = 3 + nt) (Bs : List TBnd) :
    Bs.map (TBnd.fresh nt) = withTValues Bs fun b => Arr.calloc (p.total * (Bs[b]?.map fun B => B.ids.len).getD 0) 0 := by
  apply List.ext_getElem?
  intro b
  rw [withTValues_get, List.getElem?_map]
  cases Bs[b]? with
  | none => rfl
  | some B => rw [hp]; rfl

/-- The library knows the numbers of edges of the boundaries. -/
theorem lens_of {infos : List BndInfo} {α : Type} {Bs : List α} {f : α → ℕ} (h : infos.map BndInfo.numEdges = Bs.map f) (b : ℕ) (i : BndInfo)
    (hi : infos[b]? = some i) : i.numEdges = (Bs[b]?.map f).getD 0 := by
  have h1 : (infos.map BndInfo.numEdges)[b]? = (Bs.map f)[b]? := by rw [h]
  rw [List.getElem?_map, List.getElem?_map, hi] at h1
  rw [← h1]
  rfl

theorem valid_given {p : Phys} (hp : p.total = 3) {ne : ℕ} {Bs : List Bnd} (hB : ∀ B ∈ Bs, ∀ e < B.ids.len, B.ids.val e < ne) (calls : List BndCall) :
    ∀ B ∈ givenBnds p calls Bs, B.Valid ne := by
  intro B hm
  unfold givenBnds at hm
  obtain ⟨b, hb, rfl⟩ := List.mem_mapIdx.mp hm
  exact ⟨hB Bs[b] (List.getElem_mem hb), by show p.total * _ = _; rw [hp]⟩

theorem validT_given {p : Phys} {nt : ℕ} (hp : p.total = 3 + nt) {ne : ℕ} {Bs : List TBnd} (hB : ∀ B ∈ Bs, ∀ e < B.ids.len, B.ids.val e < ne)
    (calls : List BndCall) : ∀ B ∈ givenTBnds p calls Bs, B.Valid ne nt := by
  intro B hm
  unfold givenTBnds at hm
  obtain ⟨b, hb, rfl⟩ := List.mem_mapIdx.mp hm
  exact ⟨hB Bs[b] (List.getElem_mem hb), by show p.total * _ = _; rw [hp]⟩

variable {T : CTables} {nc n ne nv : ℕ}

theorem ceed_keeps (P : FlowParams) (hT : T.Valid nc n ne nv) {Bs : List Bnd} {infos : List BndInfo}
    (hI : infos.map BndInfo.numEdges = Bs.map fun B => B.ids.len) {eta : Arr ℝ} (he : eta.len = nv) :
    Keeps infos (ceedWrite 1 4) (ceedBndEval nc) (fun b => (Bs[b]?.map fun B => B.ids.len).getD 0)
      (fun ops w => OpsHold P T eta (withValues Bs w) ops)
      (fun w u => u.len = 3 * nc ∧ ∀ B ∈ withValues Bs w, B.Valid ne) where
  lens := lens_of hI
  write := by
    intro ops w b f ops' h hb hs
    have hl : infos.length = Bs.length := by simpa using congrArg List.length hI
    obtain ⟨B, hB'⟩ : ∃ B, Bs[b]? = some B := ⟨_, List.getElem?_eq_getElem (hl ▸ hb)⟩
    obtain ⟨h1, h2, h3⟩ := ceedWrite_holds h hB' f
    by_cases ht : B.type = .dirichlet
    · cases hf : f (w b) with
      | none => rw [h2 ht hf] at hs; cases hs
      | some a =>
        obtain ⟨ops2, h4, h5⟩ := h3 ht a hf
        obtain rfl : ops2 = ops' := by rw [h4] at hs; cases hs; rfl
        exact ⟨a, rfl, h5⟩
    · rw [h1 ht] at hs; cases hs
  eval := by
    intro ops w dt u r h hu hr
    obtain ⟨ops', rhs', h1, h2, -⟩ := evaluation_holds P hT he hu.1 dt hu.2 h
    obtain rfl : (ops', rhs') = r := Option.some.inj (h1.symm.trans hr)
    exact h2

/-- With the CEED backend and flow only: after any calls that succeeded, an evaluation gives the divergences of edges treated one by one, where every edge of
every Dirichlet boundary has the depth and momenta that were given to it last. -/
theorem C119_ceed (P : FlowParams) (hT : T.Valid nc n ne nv) {Bs : List Bnd} (hB : ∀ B ∈ Bs, ∀ e < B.ids.len, B.ids.val e < ne) {p : Phys} (hp : p.total = 3)
    {infos : List BndInfo} (hI : infos.map BndInfo.numEdges = Bs.map fun B => B.ids.len) (calls : List BndCall) (hsz : ∀ a ∈ calls, a.Sized (3 * nc))
    {ops : List COp} (h1 : createFluxC P T T.vz (Bs.map Bnd.fresh) = some ops) {s : BndState (List COp)}
    (hs : bndRun p infos (ceedWrite 1 4) (ceedBndEval nc) calls ⟨ops, []⟩ = .ok s) (dt : ℝ) {u : Arr ℝ} (hu : u.len = 3 * nc) :
    ∃ s' f, bndRun p infos (ceedWrite 1 4) (ceedBndEval nc) (calls ++ [.evaluate dt u]) ⟨ops, []⟩ = .ok s' ∧ s'.out = f :: s.out ∧ f.len = 3 * nc ∧
      (∀ g, ceedDivergence P false (ceedMeshOf T (givenBnds p calls Bs) nc) (stateAt u) = some g → ∀ c, ∀ k < 3, f.val (3 * c + k) = some ((g c).comp k)) ∧
      (ceedDivergence P false (ceedMeshOf T (givenBnds p calls Bs) nc) (stateAt u) = none → ∃ c < nc, ∀ k < 3, f.val (3 * c + k) = none) := by
  have hK := ceed_keeps P hT (Bs := Bs) hI (eta := T.vz) hT.vz
  have hv0 : ∀ B ∈ Bs.map Bnd.fresh, B.Valid ne := by
    intro B hm
    obtain ⟨B0, hm0, rfl⟩ := List.mem_map.mp hm
    exact ⟨hB B0 hm0, rfl⟩
  obtain ⟨ops0, e1, e2⟩ := createFluxC_holds P hT T.vz hv0
  obtain rfl : ops0 = ops := Option.some.inj (e1.symm.trans h1)
  rw [fresh_eq hp] at e2
  have hR := run_keeps (p := p) hK calls hsz (fun l dt u hl => ⟨hsz (.evaluate dt u) (hl.subset (by simp)), by
    rw [← givenBnds_eq]; exact valid_given hp hB l⟩) e2 hs
  rw [← givenBnds_eq] at hR
  obtain ⟨ops', f, i1, i2, i3, i4⟩ := evaluation_holds P hT hT.vz hu dt (valid_given hp hB calls) hR
  refine ⟨⟨ops', f :: s.out⟩, f, bndRun_snoc.mpr ⟨s, hs, ?_⟩, rfl, i3, fun g hg c k hk => ?_, fun hn => ?_⟩
  · unfold bndStep ceedBndEval
    dsimp only
    rw [i1]
  · rw [i4 c k hk]
    exact divergence_entry P hT _ rfl hg c k
  · obtain ⟨c, hc, h⟩ := divergence_nan P hT (valid_given hp hB calls) (eta := T.vz) rfl hn
    exact ⟨c, hc, fun k hk => (i4 c k hk).trans (h k)⟩

/-! ### The CEED backend with sediment -/

theorem wetOn_wet {B : TBnd} {P : FlowParams} {nt : ℕ} {u : Arr ℝ} (h : B.WetOn P nt T u) : B.Wet P nt T u := by
  intro ht e he
  obtain ⟨h1, h2⟩ := owned'_mem he
  exact h ht e h1 h2

theorem ceedT_keeps (sv : TSolver) (P : FlowParams) (mem : Mem) {nt : ℕ} (hn : nt ≤ 5) (hT : T.Valid nc n ne nv) {Bs : List TBnd} {infos : List BndInfo}
    (hI : infos.map BndInfo.numEdges = Bs.map fun B => B.ids.len) :
    Keeps infos (ceedWrite 1 2) (ceedTBndEval nt nc) (fun b => (Bs[b]?.map fun B => B.ids.len).getD 0)
      (fun ops w => OpsReadyT sv P nt mem T (withTValues Bs w) ops)
      (fun w u => u.len = (3 + nt) * nc ∧ ∀ B ∈ withTValues Bs w, B.Valid ne nt ∧ B.WetOn P nt T u) where
  lens := lens_of hI
  write := by
    intro ops w b f ops' h hb hs
    have hl : infos.length = Bs.length := by simpa using congrArg List.length hI
    obtain ⟨B, hB'⟩ : ∃ B, Bs[b]? = some B := ⟨_, List.getElem?_eq_getElem (hl ▸ hb)⟩
    obtain ⟨h1, h2, h3⟩ := ceedWrite_holdsT h hB' f
    by_cases ht : B.type = .dirichlet
    · cases hf : f (w b) with
      | none => rw [h2 ht hf] at hs; cases hs
      | some a =>
        obtain ⟨ops2, h4, h5⟩ := h3 ht a hf
        obtain rfl : ops2 = ops' := by rw [h4] at hs; cases hs; rfl
        exact ⟨a, rfl, h5⟩
    · rw [h1 ht] at hs; cases hs
  eval := by
    intro ops w dt u r h hu hr
    obtain ⟨ops', rhs', h1, h2, -⟩ := evaluation_specT sv P mem hn hT hu.1 dt (fun B hB => (hu.2 B hB).1) (fun B hB => wetOn_wet (hu.2 B hB).2) h
    obtain rfl : (ops', rhs') = r := Option.some.inj (h1.symm.trans hr)
    exact h2

/-- With the CEED backend and sediment: after any calls that succeeded, an evaluation gives the divergences of edges treated one by one, where every edge of every
Dirichlet boundary has the depth, momenta and concentrations that were given to it last, each component by its own setter. At every evaluation, every edge of
a Dirichlet boundary that belongs to the process must have water on one of its sides (C116 tells what happens otherwise). -/
theorem C119_tracers (sv : TSolver) (P : FlowParams) (mem : Mem) {nt : ℕ} (hn : nt ≤ 5) (hT : T.Valid nc n ne nv) {Bs : List TBnd}
    (hB : ∀ B ∈ Bs, ∀ e < B.ids.len, B.ids.val e < ne) {p : Phys} (hp : p.total = 3 + nt) {infos : List BndInfo}
    (hI : infos.map BndInfo.numEdges = Bs.map fun B => B.ids.len) (calls : List BndCall) (hsz : ∀ a ∈ calls, a.Sized ((3 + nt) * nc)) {ops : List COp}
    (h1 : createFluxT sv P nt mem T (Bs.map (TBnd.fresh nt)) = some ops) {s : BndState (List COp)}
    (hs : bndRun p infos (ceedWrite 1 2) (ceedTBndEval nt nc) calls ⟨ops, []⟩ = .ok s) (dt : ℝ) {u : Arr ℝ} (hu : u.len = (3 + nt) * nc)
    (hw : ∀ l dt' u', l ++ [.evaluate dt' u'] <+: calls ++ [.evaluate dt u] → ∀ B ∈ givenTBnds p l Bs, B.WetOn P nt T u') :
    ∃ s' f, bndRun p infos (ceedWrite 1 2) (ceedTBndEval nt nc) (calls ++ [.evaluate dt u]) ⟨ops, []⟩ = .ok s' ∧ s'.out = f :: s.out ∧
      f.len = (3 + nt) * nc ∧ ∀ g, ceedTDiv false sv P nt (ceedMeshOf T [] nc) (ownEdges nt T (givenTBnds p calls Bs)) (tStateAt nt u) = some g →
        ∀ c, ∀ k < 3 + nt, f.val ((3 + nt) * c + k) = some (g c k) := by
  have hK := ceedT_keeps sv P mem hn hT (Bs := Bs) hI
  have hv0 : ∀ B ∈ Bs.map (TBnd.fresh nt), B.Valid ne nt := by
    intro B hm
    obtain ⟨B0, hm0, rfl⟩ := List.mem_map.mp hm
    exact ⟨hB B0 hm0, rfl⟩
  obtain ⟨ops0, e1, e2, -⟩ := createFluxT_spec sv P mem hT hv0
  obtain rfl : ops0 = ops := Option.some.inj (e1.symm.trans h1)
  rw [freshT_eq hp] at e2
  have hR := run_keeps (p := p) hK calls hsz (fun l dt' u' hl => ⟨hsz (.evaluate dt' u') (hl.subset (by simp)), by
    rw [← givenTBnds_eq]
    exact fun B hB' => ⟨validT_given hp hB l B hB', hw l dt' u' (hl.trans (List.prefix_append _ _)) B hB'⟩⟩) e2 hs
  rw [← givenTBnds_eq] at hR
  obtain ⟨ops', f, i1, i2, i3, i4, -⟩ := evaluation_specT sv P mem hn hT hu dt (validT_given hp hB calls)
    (fun B hB' => wetOn_wet (hw calls dt u List.prefix_rfl B hB')) hR
  refine ⟨⟨ops', f :: s.out⟩, f, bndRun_snoc.mpr ⟨s, hs, ?_⟩, rfl, i3, fun g hg c k hk => (i4 c k hk).trans (divergence_entryT sv P hT _ hg c k)⟩
  unfold bndStep ceedTBndEval
  dsimp only
  rw [i1]

/-! ### The PETSc backend -/

theorem petsc_keeps {P : FlowParams} {C : PetscCfg} {T : Tables} {V : BedTables} {nc n ne : ℕ} (hT : T.Valid nc n ne) (hV : V.Valid nc) {Bs : List Bnd}
    {infos : List BndInfo} (hI : infos.map BndInfo.numEdges = Bs.map fun B => B.ids.len) {src mat : Arr ℝ} (hsrc : src.len = 3 * n) (hmat : mat.len = n) :
    Keeps infos petscWrite (petscBndEval P C T V nc n src mat) (fun b => (Bs[b]?.map fun B => B.ids.len).getD 0)
      (fun s w => s.2 = withValues Bs w ∧ s.1.1.Ready C T V (withValues Bs w) nc ∧ s.1.2.pv.len = 3 * n)
      (fun w u => u.len = 3 * nc ∧ ∀ B ∈ withValues Bs w, B.Valid ne) where
  lens := lens_of hI
  write := by
    intro s w b f s' h hb hs
    have hl : infos.length = Bs.length := by simpa using congrArg List.length hI
    obtain ⟨B, hB'⟩ : ∃ B, Bs[b]? = some B := ⟨_, List.getElem?_eq_getElem (hl ▸ hb)⟩
    obtain ⟨h1, h2⟩ := petscWrite_holds h.1 hB' f
    cases hf : f (w b) with
    | none => rw [h1 hf] at hs; cases hs
    | some a =>
      rw [h2 a hf] at hs
      cases hs
      exact ⟨a, rfl, rfl, petscMem_values h.2.1, h.2.2⟩
  eval := by
    rintro ⟨⟨M, D⟩, Bs'⟩ w dt u r ⟨h1, h2, h3⟩ hu hr
    dsimp only at h1 h2 h3
    subst h1
    obtain ⟨M', D', f, e1, e2, e3, -⟩ := C112_results (P := P) hT hV hu.2 dt hu.1 h2 (D := { D with src := src, mat := mat }) ⟨hsrc, hmat, h3⟩
    unfold petscBndEval at hr
    dsimp only at hr
    rw [e1] at hr
    cases hr
    exact ⟨rfl, e2, e3.pv⟩

/-- With the PETSc backend and flow only: after any calls that succeeded, an evaluation gives the right-hand side of edges and cells treated one by one, where every edge of
every Dirichlet boundary has the depth and momenta that were given to it last. -/
theorem C119_petsc {P : FlowParams} {C : PetscCfg} {T : Tables} {V : BedTables} {nc n ne : ℕ} (hT : T.Valid nc n ne) (hV : V.Valid nc) {Bs : List Bnd}
    (hB : ∀ B ∈ Bs, ∀ e < B.ids.len, B.ids.val e < ne) {p : Phys} (hp : p.total = 3) {infos : List BndInfo}
    (hI : infos.map BndInfo.numEdges = Bs.map fun B => B.ids.len) {src mat : Arr ℝ} (hsrc : src.len = 3 * n) (hmat : mat.len = n) (calls : List BndCall)
    (hsz : ∀ a ∈ calls, a.Sized (3 * nc)) {M : PetscMem} {D : PetscVecs} (hM : createPetsc C T V (Bs.map Bnd.fresh) nc = some M) (hD : D.pv.len = 3 * n)
    {s : BndState ((PetscMem × PetscVecs) × List Bnd)}
    (hs : bndRun p infos petscWrite (petscBndEval P C T V nc n src mat) calls ⟨((M, D), Bs.map Bnd.fresh), []⟩ = .ok s) (dt : ℝ) {u : Arr ℝ}
    (hu : u.len = 3 * nc) :
    ∃ s' f, bndRun p infos petscWrite (petscBndEval P C T V nc n src mat) (calls ++ [.evaluate dt u]) ⟨((M, D), Bs.map Bnd.fresh), []⟩ = .ok s' ∧
      s'.out = f :: s.out ∧ f.len = 3 * n ∧ ∀ g,
        rhs P C.method (decide (C.wb = .hr)) (rhsMeshOf T V (givenBnds p calls Bs) nc) dt (srcAt src) mat.val (stateAt u) = some g → ∀ o,
          f.val (3 * o) = some (g o).m ∧ f.val (3 * o + 1) = some (g o).x ∧ f.val (3 * o + 2) = some (g o).y := by
  have hK := petsc_keeps (P := P) (C := C) hT hV (Bs := Bs) hI hsrc hmat
  have hv0 : ∀ B ∈ Bs.map Bnd.fresh, B.Valid ne := by
    intro B hm
    obtain ⟨B0, hm0, rfl⟩ := List.mem_map.mp hm
    exact ⟨hB B0 hm0, rfl⟩
  obtain ⟨M0, e1, e2, -⟩ := C112_create C hT hV hv0
  obtain rfl : M0 = M := Option.some.inj (e1.symm.trans hM)
  rw [fresh_eq hp] at e2
  have hR := run_keeps (p := p) hK calls hsz (fun l dt u hl => ⟨hsz (.evaluate dt u) (hl.subset (by simp)), by
    rw [← givenBnds_eq]; exact valid_given hp hB l⟩) (m := ((M0, D), Bs.map Bnd.fresh)) ⟨fresh_eq hp Bs, e2, hD⟩ hs
  rw [← givenBnds_eq] at hR
  obtain ⟨M', D', f, i1, i2, i3, i4, i5⟩ := C112_results (P := P) hT hV (valid_given hp hB calls) dt hu hR.2.1
    (D := { s.mem.1.2 with src := src, mat := mat }) ⟨hsrc, hmat, hR.2.2⟩
  refine ⟨⟨((M', D'), s.mem.2), f :: s.out⟩, f, bndRun_snoc.mpr ⟨s, hs, ?_⟩, rfl, i4, i5⟩
  unfold bndStep petscBndEval
  dsimp only
  rw [hR.1, i1]
  rfl

theorem petscT_keeps {sv : TSolver} {P : FlowParams} {T : Tables} {nc n ne nt : ℕ} (hnt : 3 + nt ≤ maxFieldComponents) (hT : T.Valid nc n ne) {Bs : List TBnd}
    {infos : List BndInfo} (hI : infos.map BndInfo.numEdges = Bs.map fun B => B.ids.len) :
    Keeps infos petscTWrite (petscTBndEval sv P nt T n) (fun b => (Bs[b]?.map fun B => B.ids.len).getD 0)
      (fun s w => s.2 = withTValues Bs w ∧ s.1.Ready nt T (withTValues Bs w))
      (fun w u => u.len = (3 + nt) * nc ∧ ∀ B ∈ withTValues Bs w, B.Valid ne nt) where
  lens := lens_of hI
  write := by
    intro s w b f s' h hb hs
    have hl : infos.length = Bs.length := by simpa using congrArg List.length hI
    obtain ⟨B, hB'⟩ : ∃ B, Bs[b]? = some B := ⟨_, List.getElem?_eq_getElem (hl ▸ hb)⟩
    obtain ⟨h1, h2⟩ := petscTWrite_holds h.1 hB' f
    cases hf : f (w b) with
    | none => rw [h1 hf] at hs; cases hs
    | some a =>
      rw [h2 a hf] at hs
      cases hs
      exact ⟨a, rfl, rfl, tracerMem_values h.2⟩
  eval := by
    rintro ⟨M, Bs'⟩ w dt u r ⟨h1, h2⟩ hu hr
    dsimp only at h1 h2
    subst h1
    obtain ⟨M', f, e1, e2, -⟩ := tracerFluxesB_spec (sv := sv) (P := P) hnt hT hu.2 hu.1 h2
    unfold petscTBndEval at hr
    dsimp only at hr
    rw [e1] at hr
    cases hr
    exact ⟨rfl, e2⟩

/-- With the PETSc backend and sediment: after any calls that succeeded, an evaluation gives the divergences of edges treated one by one, where every edge of every
Dirichlet boundary has the depth, momenta and concentrations that were given to it last, each component by its own setter. -/
theorem C119_petsc_tracers {sv : TSolver} {P : FlowParams} {T : Tables} {nc n ne nt : ℕ} (hnt : 3 + nt ≤ maxFieldComponents) (hT : T.Valid nc n ne)
    {Bs : List TBnd} (hB : ∀ B ∈ Bs, ∀ e < B.ids.len, B.ids.val e < ne) {p : Phys} (hp : p.total = 3 + nt) {infos : List BndInfo}
    (hI : infos.map BndInfo.numEdges = Bs.map fun B => B.ids.len) (calls : List BndCall) (hsz : ∀ a ∈ calls, a.Sized ((3 + nt) * nc)) {b : TBatch}
    {ss : List TBState} (h1 : createTracerInteriorB T nt = some b) (h2 : (Bs.map (TBnd.fresh nt)).mapM (createTracerBoundaryB T nt) = some ss)
    {s : BndState (TFluxMem × List TBnd)}
    (hs : bndRun p infos petscTWrite (petscTBndEval sv P nt T n) calls ⟨(⟨b, ss⟩, Bs.map (TBnd.fresh nt)), []⟩ = .ok s) (dt : ℝ) {u : Arr ℝ}
    (hu : u.len = (3 + nt) * nc) :
    ∃ s' f, bndRun p infos petscTWrite (petscTBndEval sv P nt T n) (calls ++ [.evaluate dt u]) ⟨(⟨b, ss⟩, Bs.map (TBnd.fresh nt)), []⟩ = .ok s' ∧
      s'.out = f :: s.out ∧ f.len = (3 + nt) * n ∧ ∀ g,
        tracerDivergence sv P nt (meshOf T [] nc) (tbEdgesOf nt T (givenTBnds p calls Bs)) (tStateAt nt u) = some g →
          ∀ o < n, ∀ i < 3 + nt, f.val ((3 + nt) * o + i) = some (g o i) := by
  have hK := petscT_keeps (sv := sv) (P := P) hnt hT (Bs := Bs) hI
  have hv0 : ∀ B ∈ Bs.map (TBnd.fresh nt), B.Valid ne nt := by
    intro B hm
    obtain ⟨B0, hm0, rfl⟩ := List.mem_map.mp hm
    exact ⟨hB B0 hm0, rfl⟩
  obtain ⟨b0, ss0, e1, e2, e3⟩ := C108_tracer_create hT hv0
  obtain rfl : b0 = b := Option.some.inj (e1.symm.trans h1)
  obtain rfl : ss0 = ss := Option.some.inj (e2.symm.trans h2)
  rw [freshT_eq hp] at e3
  have hR := run_keeps (p := p) hK calls hsz (fun l dt u hl => ⟨hsz (.evaluate dt u) (hl.subset (by simp)), by
    rw [← givenTBnds_eq]; exact validT_given hp hB l⟩) (m := (⟨b0, ss0⟩, Bs.map (TBnd.fresh nt))) ⟨freshT_eq hp Bs, e3⟩ hs
  rw [← givenTBnds_eq] at hR
  obtain ⟨M', f, i1, i2, i3, i4, -⟩ := tracerFluxesB_spec (sv := sv) (P := P) hnt hT (validT_given hp hB calls) hu hR.2
  refine ⟨⟨(M', s.mem.2), f :: s.out⟩, f, bndRun_snoc.mpr ⟨s, hs, ?_⟩, rfl, i3, fun g hg o _ i hi => by rw [i4 o i hi, tFluxEntry_eq hg]⟩
  unfold bndStep petscTBndEval
  dsimp only
  rw [hR.1, i1]
  rfl

/-! ### Which calls succeed -/

theorem setBnd_accept {σ : Type} {p : Phys} {infos : List BndInfo} {wr : σ → ℕ → (Arr ℝ → Option (Arr ℝ)) → Res σ} {kind : BndInfo → Option CondType} {off m : ℕ}
    {b : ℤ} {ne : ℕ} {v : Arr ℝ} {s : BndState σ} (hb : 0 ≤ b) {i : BndInfo} (hi : infos[b.toNat]? = some i) (hn : i.numEdges = ne)
    (hk : kind i = some .dirichlet) : setBnd p infos wr kind off m b ne v s = match wr s.mem b.toNat (writeBoundary p.total off m ne v) with
      | .ok s' => .ok { s with mem := s' }
      | .error => .error
      | .ub => .ub := by
  have hl := (List.getElem?_eq_some_iff.mp hi).1
  unfold setBnd
  rw [if_neg (by omega), if_neg (by omega), hi]
  dsimp only
  rw [if_neg (not_not.mpr hn), hk]
  dsimp only
  rw [if_neg (not_not.mpr rfl)]
  cases wr s.mem b.toNat (writeBoundary p.total off m ne v) <;> rfl

theorem setBnd_refuse {σ : Type} {p : Phys} {infos : List BndInfo} {wr : σ → ℕ → (Arr ℝ → Option (Arr ℝ)) → Res σ} {kind : BndInfo → Option CondType} {off m : ℕ}
    {b : ℤ} {ne : ℕ} {v : Arr ℝ} {s : BndState σ} (h : ¬ (0 ≤ b ∧ ∃ i, infos[b.toNat]? = some i ∧ i.numEdges = ne ∧ kind i = some .dirichlet))
    (hk : ∀ i, infos[b.toNat]? = some i → kind i ≠ none) : setBnd p infos wr kind off m b ne v s = .error := by
  unfold setBnd
  by_cases h1 : (infos.length : ℤ) ≤ b
  · rw [if_pos h1]
  rw [if_neg h1]
  by_cases h2 : b < 0
  · rw [if_pos h2]
  rw [if_neg h2]
  have hl : b.toNat < infos.length := by omega
  rw [List.getElem?_eq_getElem hl]
  dsimp only
  by_cases h3 : infos[b.toNat].numEdges = ne
  · rw [if_neg (not_not.mpr h3)]
    cases hc : kind infos[b.toNat] with
    | none => exact absurd hc (hk _ (List.getElem?_eq_getElem hl))
    | some t =>
      dsimp only
      rw [if_pos]
      rintro rfl
      exact h ⟨not_lt.mp h2, _, List.getElem?_eq_getElem hl, h3, hc⟩
  · rw [if_pos h3]

theorem setter_outcome {σ : Type} {p : Phys} {infos : List BndInfo} {wr : σ → ℕ → (Arr ℝ → Option (Arr ℝ)) → Res σ} {ev : σ → ℝ → Arr ℝ → Option (σ × Arr Num)}
    {lens : ℕ → ℕ} {Rep : σ → (ℕ → Arr ℝ) → Prop} {Ok : ℕ → Prop} (hL : ∀ b i, infos[b]? = some i → i.numEdges = lens b)
    (h1 : ∀ s w b f a, Rep s w → b < infos.length → Ok b → f (w b) = some a → ∃ s', wr s b f = .ok s')
    (h2 : ∀ s w b f, Rep s w → b < infos.length → ¬ Ok b → wr s b f = .error) {N : ℕ} {l : List BndCall} {a : BndCall} (ha : a.Sized N)
    (hne : ∀ dt u, a ≠ .evaluate dt u) {s : BndState σ} (h0 : Rep s.mem fun b => givenValues p l b (lens b)) :
    (a.Correct p infos → Ok a.boundary.toNat → ∃ s', bndStep p infos wr ev s a = .ok s' ∧ s'.out = s.out) ∧
    (a.Correct p infos → ¬ Ok a.boundary.toNat → bndStep p infos wr ev s a = .error) ∧
    (¬ a.Correct p infos → (∀ i, infos[a.boundary.toNat]? = some i → a.condition i ≠ none) → bndStep p infos wr ev s a = .error) := by
  have key : ∀ {kind : BndInfo → Option CondType} {off m : ℕ} {b : ℤ} {ne : ℕ} {v : Arr ℝ}, off + m ≤ p.total → v.len = m * ne → 0 ≤ b → ∀ {i : BndInfo},
      infos[b.toNat]? = some i → i.numEdges = ne → kind i = some .dirichlet →
      (Ok b.toNat → ∃ s', setBnd p infos wr kind off m b ne v s = .ok s' ∧ s'.out = s.out) ∧
      (¬ Ok b.toNat → setBnd p infos wr kind off m b ne v s = .error) := by
    intro kind off m b ne v ho hv hb i hi hn hk
    have hl := (List.getElem?_eq_some_iff.mp hi).1
    rw [setBnd_accept hb hi hn hk]
    constructor
    · intro hok
      obtain ⟨w, e1, -⟩ := writeBoundary_spec ho (ne := ne) hv (a := givenValues p l b.toNat (lens b.toNat)) (by rw [← hn, hL _ i hi]; rfl)
      obtain ⟨s', e2⟩ := h1 _ _ _ _ w h0 hl hok e1
      rw [e2]
      exact ⟨_, rfl, rfl⟩
    · intro hok
      rw [h2 _ _ _ _ h0 hl hok]
  cases a with
  | flow b ne m v =>
    unfold bndStep
    dsimp only
    refine ⟨fun hc hok => ?_, fun hc hok => ?_, fun hc hk => ?_⟩
    · obtain ⟨rfl, hb, i, e1, e2, e3⟩ : m = 3 ∧ _ := hc
      rw [if_neg (not_not.mpr rfl)]
      exact (key (by unfold Phys.total; omega) ha hb e1 e2 e3).1 hok
    · obtain ⟨rfl, hb, i, e1, e2, e3⟩ : m = 3 ∧ _ := hc
      rw [if_neg (not_not.mpr rfl)]
      exact (key (by unfold Phys.total; omega) ha hb e1 e2 e3).2 hok
    · by_cases hm : m = 3
      · rw [if_neg (not_not.mpr hm)]
        exact setBnd_refuse (fun h => hc ⟨hm, h⟩) hk
      · rw [if_pos hm]
  | sediment b ne m v =>
    unfold bndStep
    dsimp only
    refine ⟨fun hc hok => ?_, fun hc hok => ?_, fun hc hk => ?_⟩
    · obtain ⟨rfl, hb, i, e1, e2, e3⟩ : m = p.numClasses ∧ _ := hc
      rw [if_neg (not_not.mpr rfl)]
      exact (key (by unfold Phys.total; omega) ha hb e1 e2 e3).1 hok
    · obtain ⟨rfl, hb, i, e1, e2, e3⟩ : m = p.numClasses ∧ _ := hc
      rw [if_neg (not_not.mpr rfl)]
      exact (key (by unfold Phys.total; omega) ha hb e1 e2 e3).2 hok
    · by_cases hm : m = p.numClasses
      · rw [if_neg (not_not.mpr hm)]
        exact setBnd_refuse (fun h => hc ⟨hm, h⟩) hk
      · rw [if_pos hm]
  | salinity b ne v =>
    unfold bndStep
    dsimp only
    refine ⟨fun hc hok => ?_, fun hc hok => ?_, fun hc hk => ?_⟩
    · obtain ⟨hm, hb, i, e1, e2, e3⟩ : p.salinityOn = true ∧ _ := hc
      rw [if_neg (by rw [hm]; simp)]
      exact (key (by unfold Phys.total; rw [hm]; simp) ((show v.len = ne from ha).trans (Nat.one_mul ne).symm) hb e1 e2 e3).1 hok
    · obtain ⟨hm, hb, i, e1, e2, e3⟩ : p.salinityOn = true ∧ _ := hc
      rw [if_neg (by rw [hm]; simp)]
      exact (key (by unfold Phys.total; rw [hm]; simp) ((show v.len = ne from ha).trans (Nat.one_mul ne).symm) hb e1 e2 e3).2 hok
    · by_cases hm : p.salinityOn = false
      · rw [if_pos hm]
      · rw [if_neg hm]
        exact setBnd_refuse (fun h => hc ⟨(Bool.not_eq_false _).mp hm, h⟩) hk
  | temperature b ne v =>
    unfold bndStep
    dsimp only
    refine ⟨fun hc hok => ?_, fun hc hok => ?_, fun hc hk => ?_⟩
    · obtain ⟨hm, hb, i, e1, e2, e3⟩ : p.heatOn = true ∧ _ := hc
      rw [if_neg (by rw [hm]; simp)]
      exact (key (by unfold Phys.total; rw [hm]; simp) ((show v.len = ne from ha).trans (Nat.one_mul ne).symm) hb e1 e2 e3).1 hok
    · obtain ⟨hm, hb, i, e1, e2, e3⟩ : p.heatOn = true ∧ _ := hc
      rw [if_neg (by rw [hm]; simp)]
      exact (key (by unfold Phys.total; rw [hm]; simp) ((show v.len = ne from ha).trans (Nat.one_mul ne).symm) hb e1 e2 e3).2 hok
    · by_cases hm : p.heatOn = false
      · rw [if_pos hm]
      · rw [if_neg hm]
        exact setBnd_refuse (fun h => hc ⟨(Bool.not_eq_false _).mp hm, h⟩) hk
  | evaluate dt u => exact absurd rfl (hne dt u)

theorem bndRun_step {σ : Type} {p : Phys} {infos : List BndInfo} {wr : σ → ℕ → (Arr ℝ → Option (Arr ℝ)) → Res σ} {ev : σ → ℝ → Arr ℝ → Option (σ × Arr Num)}
    {a : BndCall} : ∀ {l : List BndCall} {s s1 : BndState σ}, bndRun p infos wr ev l s = .ok s1 →
      bndRun p infos wr ev (l ++ [a]) s = bndStep p infos wr ev s1 a := by
  intro l
  induction l with
  | nil =>
    intro s s1 h
    unfold bndRun at h
    cases h
    rw [List.nil_append]
    unfold bndRun
    cases bndStep p infos wr ev s a <;> rfl
  | cons x l ih =>
    intro s s1 h
    rw [List.cons_append]
    unfold bndRun at h ⊢
    cases hs : bndStep p infos wr ev s x with
    | ok s2 => rw [hs] at h; exact ih h
    | error => rw [hs] at h; cases h
    | ub => rw [hs] at h; cases h

/-- With the CEED backend and sediment, after any calls that succeeded: a correct call of a setter succeeds if the flow has a Dirichlet condition on the boundary; one that is not
correct is refused with an error, whenever the boundary has a condition for the quantity. -/
theorem C119_setters (sv : TSolver) (P : FlowParams) (mem : Mem) {nt : ℕ} (hn : nt ≤ 5) (hT : T.Valid nc n ne nv) {Bs : List TBnd}
    (hB : ∀ B ∈ Bs, ∀ e < B.ids.len, B.ids.val e < ne) {p : Phys} (hp : p.total = 3 + nt) {infos : List BndInfo}
    (hI : infos.map BndInfo.numEdges = Bs.map fun B => B.ids.len) (calls : List BndCall) (hsz : ∀ a ∈ calls, a.Sized ((3 + nt) * nc)) {ops : List COp}
    (h1 : createFluxT sv P nt mem T (Bs.map (TBnd.fresh nt)) = some ops) {s : BndState (List COp)}
    (hs : bndRun p infos (ceedWrite 1 2) (ceedTBndEval nt nc) calls ⟨ops, []⟩ = .ok s)
    (hw : ∀ l dt' u', l ++ [.evaluate dt' u'] <+: calls → ∀ B ∈ givenTBnds p l Bs, B.WetOn P nt T u') {a : BndCall} (ha : a.Sized ((3 + nt) * nc))
    (hne : ∀ dt u, a ≠ .evaluate dt u) :
    (a.Correct p infos → ∀ B, Bs[a.boundary.toNat]? = some B → B.type = .dirichlet →
      ∃ s', bndRun p infos (ceedWrite 1 2) (ceedTBndEval nt nc) (calls ++ [a]) ⟨ops, []⟩ = .ok s' ∧ s'.out = s.out) ∧
    (a.Correct p infos → ∀ B, Bs[a.boundary.toNat]? = some B → B.type ≠ .dirichlet →
      bndRun p infos (ceedWrite 1 2) (ceedTBndEval nt nc) (calls ++ [a]) ⟨ops, []⟩ = .error) ∧
    (¬ a.Correct p infos → (∀ i, infos[a.boundary.toNat]? = some i → a.condition i ≠ none) →
      bndRun p infos (ceedWrite 1 2) (ceedTBndEval nt nc) (calls ++ [a]) ⟨ops, []⟩ = .error) := by
  have hK := ceedT_keeps sv P mem hn hT (Bs := Bs) hI
  have hv0 : ∀ B ∈ Bs.map (TBnd.fresh nt), B.Valid ne nt := by
    intro B hm
    obtain ⟨B0, hm0, rfl⟩ := List.mem_map.mp hm
    exact ⟨hB B0 hm0, rfl⟩
  obtain ⟨ops0, e1, e2, -⟩ := createFluxT_spec sv P mem hT hv0
  obtain rfl : ops0 = ops := Option.some.inj (e1.symm.trans h1)
  rw [freshT_eq hp] at e2
  have hR := run_keeps (p := p) hK calls hsz (fun l dt' u' hl => ⟨hsz (.evaluate dt' u') (hl.subset (by simp)), by
    rw [← givenTBnds_eq]
    exact fun B hB' => ⟨validT_given hp hB l B hB', hw l dt' u' hl B hB'⟩⟩) e2 hs
  have hl : infos.length = Bs.length := by simpa using congrArg List.length hI
  obtain ⟨q1, q2, q3⟩ := setter_outcome (ev := ceedTBndEval nt nc) (wr := ceedWrite 1 2) (Ok := fun b => ∀ B, Bs[b]? = some B → B.type = .dirichlet) (Rep := fun ops w => OpsReadyT sv P nt mem T (withTValues Bs w) ops)
    hK.lens
    (fun s w b f x h hb hok hf => by
      obtain ⟨B, hB'⟩ : ∃ B, Bs[b]? = some B := ⟨_, List.getElem?_eq_getElem (hl ▸ hb)⟩
      obtain ⟨s', h4, -⟩ := (ceedWrite_holdsT h hB' f).2.2 (hok B hB') x hf
      exact ⟨s', h4⟩)
    (fun s w b f h hb hok => by
      obtain ⟨B, hB'⟩ : ∃ B, Bs[b]? = some B := ⟨_, List.getElem?_eq_getElem (hl ▸ hb)⟩
      exact (ceedWrite_holdsT h hB' f).1 fun ht => hok fun B2 hB2 => by rw [hB'] at hB2; cases hB2; exact ht) ha hne hR
  rw [bndRun_step hs]
  refine ⟨fun hc B hb ht => q1 hc fun B2 hb2 => ?_, fun hc B hb ht => q2 hc fun h => ht (h B hb), q3⟩
  rw [hb] at hb2
  cases hb2
  exact ht

/-- The same with the CEED backend and flow only, where all correct calls succeed if the operator of a boundary is that of its condition. -/
theorem C119_flow_setter (P : FlowParams) (hT : T.Valid nc n ne nv) {Bs : List Bnd} (hB : ∀ B ∈ Bs, ∀ e < B.ids.len, B.ids.val e < ne) {p : Phys} (hp : p.total = 3)
    {infos : List BndInfo} (hI : infos.map BndInfo.numEdges = Bs.map fun B => B.ids.len)
    (hty : ∀ (b : ℕ) (i : BndInfo) (B : Bnd), infos[b]? = some i → Bs[b]? = some B → (i.flow = .dirichlet ↔ B.type = .dirichlet)) (calls : List BndCall)
    (hsz : ∀ a ∈ calls, a.Sized (3 * nc)) {ops : List COp} (h1 : createFluxC P T T.vz (Bs.map Bnd.fresh) = some ops) {s : BndState (List COp)}
    (hs : bndRun p infos (ceedWrite 1 4) (ceedBndEval nc) calls ⟨ops, []⟩ = .ok s) (b : ℤ) (numEdges ndof : ℕ) {v : Arr ℝ} (hv : v.len = ndof * numEdges) :
    ((BndCall.flow b numEdges ndof v).Correct p infos →
      ∃ s', bndRun p infos (ceedWrite 1 4) (ceedBndEval nc) (calls ++ [.flow b numEdges ndof v]) ⟨ops, []⟩ = .ok s' ∧ s'.out = s.out) ∧
    (¬ (BndCall.flow b numEdges ndof v).Correct p infos →
      bndRun p infos (ceedWrite 1 4) (ceedBndEval nc) (calls ++ [.flow b numEdges ndof v]) ⟨ops, []⟩ = .error) := by
  have hK := ceed_keeps P hT (Bs := Bs) hI (eta := T.vz) hT.vz
  have hv0 : ∀ B ∈ Bs.map Bnd.fresh, B.Valid ne := by
    intro B hm
    obtain ⟨B0, hm0, rfl⟩ := List.mem_map.mp hm
    exact ⟨hB B0 hm0, rfl⟩
  obtain ⟨ops0, e1, e2⟩ := createFluxC_holds P hT T.vz hv0
  obtain rfl : ops0 = ops := Option.some.inj (e1.symm.trans h1)
  rw [fresh_eq hp] at e2
  have hR := run_keeps (p := p) hK calls hsz (fun l dt u hl => ⟨hsz (.evaluate dt u) (hl.subset (by simp)), by
    rw [← givenBnds_eq]; exact valid_given hp hB l⟩) e2 hs
  have hl : infos.length = Bs.length := by simpa using congrArg List.length hI
  obtain ⟨q1, q2, q3⟩ := setter_outcome (ev := ceedBndEval nc) (wr := ceedWrite 1 4) (Ok := fun b => ∀ B, Bs[b]? = some B → B.type = .dirichlet) (Rep := fun ops w => OpsHold P T T.vz (withValues Bs w) ops)
    hK.lens
    (fun s w b f x h hb hok hf => by
      obtain ⟨B, hB'⟩ : ∃ B, Bs[b]? = some B := ⟨_, List.getElem?_eq_getElem (hl ▸ hb)⟩
      obtain ⟨s', h4, -⟩ := (ceedWrite_holds h hB' f).2.2 (hok B hB') x hf
      exact ⟨s', h4⟩)
    (fun s w b f h hb hok => by
      obtain ⟨B, hB'⟩ : ∃ B, Bs[b]? = some B := ⟨_, List.getElem?_eq_getElem (hl ▸ hb)⟩
      exact (ceedWrite_holds h hB' f).1 fun ht => hok fun B2 hB2 => by rw [hB'] at hB2; cases hB2; exact ht)
    (N := 3 * nc) (a := .flow b numEdges ndof v) hv (fun _ _ h => by cases h) hR
  rw [bndRun_step hs]
  refine ⟨fun hc => q1 hc fun B hb => ?_, fun hc => q3 hc fun i _ => by simp [BndCall.condition]⟩
  obtain ⟨-, -, i, hi, -, ht⟩ := hc
  exact (hty _ i B hi hb).mp (Option.some.inj ht)

/-- The same with the PETSc backend and sediment, where all correct calls succeed. -/
theorem C119_petsc_setters {sv : TSolver} {P : FlowParams} {T : Tables} {nc n ne nt : ℕ} (hnt : 3 + nt ≤ maxFieldComponents) (hT : T.Valid nc n ne)
    {Bs : List TBnd} (hB : ∀ B ∈ Bs, ∀ e < B.ids.len, B.ids.val e < ne) {p : Phys} (hp : p.total = 3 + nt) {infos : List BndInfo}
    (hI : infos.map BndInfo.numEdges = Bs.map fun B => B.ids.len) (calls : List BndCall) (hsz : ∀ a ∈ calls, a.Sized ((3 + nt) * nc)) {b : TBatch}
    {ss : List TBState} (h1 : createTracerInteriorB T nt = some b) (h2 : (Bs.map (TBnd.fresh nt)).mapM (createTracerBoundaryB T nt) = some ss)
    {s : BndState (TFluxMem × List TBnd)}
    (hs : bndRun p infos petscTWrite (petscTBndEval sv P nt T n) calls ⟨(⟨b, ss⟩, Bs.map (TBnd.fresh nt)), []⟩ = .ok s) {a : BndCall}
    (ha : a.Sized ((3 + nt) * nc)) (hne : ∀ dt u, a ≠ .evaluate dt u) :
    (a.Correct p infos → ∃ s', bndRun p infos petscTWrite (petscTBndEval sv P nt T n) (calls ++ [a]) ⟨(⟨b, ss⟩, Bs.map (TBnd.fresh nt)), []⟩ = .ok s' ∧
      s'.out = s.out) ∧
    (¬ a.Correct p infos → (∀ i, infos[a.boundary.toNat]? = some i → a.condition i ≠ none) →
      bndRun p infos petscTWrite (petscTBndEval sv P nt T n) (calls ++ [a]) ⟨(⟨b, ss⟩, Bs.map (TBnd.fresh nt)), []⟩ = .error) := by
  have hK := petscT_keeps (sv := sv) (P := P) hnt hT (Bs := Bs) hI
  have hv0 : ∀ B ∈ Bs.map (TBnd.fresh nt), B.Valid ne nt := by
    intro B hm
    obtain ⟨B0, hm0, rfl⟩ := List.mem_map.mp hm
    exact ⟨hB B0 hm0, rfl⟩
  obtain ⟨b0, ss0, e1, e2, e3⟩ := C108_tracer_create hT hv0
  obtain rfl : b0 = b := Option.some.inj (e1.symm.trans h1)
  obtain rfl : ss0 = ss := Option.some.inj (e2.symm.trans h2)
  rw [freshT_eq hp] at e3
  have hR := run_keeps (p := p) hK calls hsz (fun l dt u hl => ⟨hsz (.evaluate dt u) (hl.subset (by simp)), by
    rw [← givenTBnds_eq]; exact validT_given hp hB l⟩) (m := (⟨b0, ss0⟩, Bs.map (TBnd.fresh nt))) ⟨freshT_eq hp Bs, e3⟩ hs
  have hl : infos.length = Bs.length := by simpa using congrArg List.length hI
  obtain ⟨q1, q2, q3⟩ := setter_outcome (ev := petscTBndEval sv P nt T n) (wr := petscTWrite) (Ok := fun _ => True)
    (Rep := fun s w => s.2 = withTValues Bs w ∧ s.1.Ready nt T (withTValues Bs w)) hK.lens
    (fun s w b f x h hb _ hf => by
      obtain ⟨B, hB'⟩ : ∃ B, Bs[b]? = some B := ⟨_, List.getElem?_eq_getElem (hl ▸ hb)⟩
      exact ⟨_, (petscTWrite_holds h.1 hB' f).2 x hf⟩)
    (fun s w b f h hb hok => absurd trivial hok) ha hne hR
  rw [bndRun_step hs]
  exact ⟨fun hc => q1 hc trivial, q3⟩

/-- The same with the PETSc backend and flow only. -/
theorem C119_petsc_flow_setter {P : FlowParams} {C : PetscCfg} {T : Tables} {V : BedTables} {nc n ne : ℕ} (hT : T.Valid nc n ne) (hV : V.Valid nc) {Bs : List Bnd}
    (hB : ∀ B ∈ Bs, ∀ e < B.ids.len, B.ids.val e < ne) {p : Phys} (hp : p.total = 3) {infos : List BndInfo}
    (hI : infos.map BndInfo.numEdges = Bs.map fun B => B.ids.len) {src mat : Arr ℝ} (hsrc : src.len = 3 * n) (hmat : mat.len = n) (calls : List BndCall)
    (hsz : ∀ a ∈ calls, a.Sized (3 * nc)) {M : PetscMem} {D : PetscVecs} (hM : createPetsc C T V (Bs.map Bnd.fresh) nc = some M) (hD : D.pv.len = 3 * n)
    {s : BndState ((PetscMem × PetscVecs) × List Bnd)}
    (hs : bndRun p infos petscWrite (petscBndEval P C T V nc n src mat) calls ⟨((M, D), Bs.map Bnd.fresh), []⟩ = .ok s) (b : ℤ) (numEdges ndof : ℕ) {v : Arr ℝ}
    (hv : v.len = ndof * numEdges) :
    ((BndCall.flow b numEdges ndof v).Correct p infos →
      ∃ s', bndRun p infos petscWrite (petscBndEval P C T V nc n src mat) (calls ++ [.flow b numEdges ndof v]) ⟨((M, D), Bs.map Bnd.fresh), []⟩ = .ok s' ∧
        s'.out = s.out) ∧
    (¬ (BndCall.flow b numEdges ndof v).Correct p infos →
      bndRun p infos petscWrite (petscBndEval P C T V nc n src mat) (calls ++ [.flow b numEdges ndof v]) ⟨((M, D), Bs.map Bnd.fresh), []⟩ = .error) := by
  have hK := petsc_keeps (P := P) (C := C) hT hV (Bs := Bs) hI hsrc hmat
  have hv0 : ∀ B ∈ Bs.map Bnd.fresh, B.Valid ne := by
    intro B hm
    obtain ⟨B0, hm0, rfl⟩ := List.mem_map.mp hm
    exact ⟨hB B0 hm0, rfl⟩
  obtain ⟨M0, e1, e2, -⟩ := C112_create C hT hV hv0
  obtain rfl : M0 = M := Option.some.inj (e1.symm.trans hM)
  rw [fresh_eq hp] at e2
  have hR := run_keeps (p := p) hK calls hsz (fun l dt u hl => ⟨hsz (.evaluate dt u) (hl.subset (by simp)), by
    rw [← givenBnds_eq]; exact valid_given hp hB l⟩) (m := ((M0, D), Bs.map Bnd.fresh)) ⟨fresh_eq hp Bs, e2, hD⟩ hs
  have hl : infos.length = Bs.length := by simpa using congrArg List.length hI
  obtain ⟨q1, -, q3⟩ := setter_outcome (ev := petscBndEval P C T V nc n src mat) (wr := petscWrite) (Ok := fun _ => True)
    (Rep := fun s w => s.2 = withValues Bs w ∧ s.1.1.Ready C T V (withValues Bs w) nc ∧ s.1.2.pv.len = 3 * n) hK.lens
    (fun s w b f x h hb _ hf => by
      obtain ⟨B, hB'⟩ : ∃ B, Bs[b]? = some B := ⟨_, List.getElem?_eq_getElem (hl ▸ hb)⟩
      exact ⟨_, (petscWrite_holds h.1 hB' f).2 x hf⟩)
    (fun s w b f h hb hok => absurd trivial hok) (N := 3 * nc) (a := .flow b numEdges ndof v) hv (fun _ _ h => by cases h) hR
  rw [bndRun_step hs]
  exact ⟨fun hc => q1 hc trivial, fun hc => q3 hc fun i _ => by simp [BndCall.condition]⟩

/-! ### A boundary that is a wall for the flow -/

/-- Calls that give values to a boundary where the flow has a wall change nothing with the PETSc backend, even if the sediment has a Dirichlet condition there. -/
theorem C119_ignored {sv : TSolver} {P : FlowParams} {T : Tables} {nc nt : ℕ} {p : Phys} {Bs : List TBnd} {calls : List BndCall} {a : BndCall} (u : Arr ℝ)
    (hw : ∀ B, Bs[a.boundary.toNat]? = some B → B.type = .reflecting) :
    tracerDivergence sv P nt (meshOf T [] nc) (tbEdgesOf nt T (givenTBnds p (calls ++ [a]) Bs)) (tStateAt nt u) =
      tracerDivergence sv P nt (meshOf T [] nc) (tbEdgesOf nt T (givenTBnds p calls Bs)) (tStateAt nt u) := by
  suffices h : tbEdgesOf nt T (givenTBnds p (calls ++ [a]) Bs) = tbEdgesOf nt T (givenTBnds p calls Bs) by rw [h]
  have hg : ∀ b e k, (a.boundary.toNat ≠ b) → a.gives p b e k = none := by
    intro b e k h
    cases a <;> first
      | rfl
      | exact if_neg fun q => h (by have := q.1; dsimp only [BndCall.boundary]; omega)
  unfold tbEdgesOf givenTBnds
  rw [List.mapIdx_eq_zipIdx_map, List.mapIdx_eq_zipIdx_map, List.flatMap_map, List.flatMap_map]
  refine List.flatMap_congr fun x hx => ?_
  obtain ⟨B, b⟩ := x
  have hB : Bs[b]? = some B := (List.mem_zipIdx_iff_getElem? (x := (B, b))).mp hx
  refine List.map_congr_left fun e _ => ?_
  dsimp only
  congr 1
  by_cases h : a.boundary.toNat = b
  · have ht : B.type = .reflecting := hw B (h ▸ hB)
    unfold TBnd.cond
    dsimp only
    rw [ht]
  · rw [givenValues_congr fun e k => hg b e k h]

/-- one class of sediment -/
def exSedP : Phys := ⟨1, false, false⟩

/-- a boundary with one edge: a wall for the flow, a Dirichlet condition for the sediment -/
def exWallInfo : BndInfo := ⟨1, .reflecting, some .dirichlet, none, none⟩

/-- a boundary with one edge and Dirichlet conditions for both -/
def exOpenInfo : BndInfo := ⟨1, .dirichlet, some .dirichlet, none, none⟩

/-- a concentration for this edge -/
noncomputable def exSedCall (x : ℝ) : BndCall := .sediment 0 1 1 ⟨1, fun _ => x⟩

theorem exSedCall_wall (x : ℝ) : (exSedCall x).Correct exSedP [exWallInfo] := ⟨rfl, le_refl _, exWallInfo, rfl, rfl, rfl⟩

theorem exSedCall_open (x : ℝ) : (exSedCall x).Correct exSedP [exOpenInfo] := ⟨rfl, le_refl _, exOpenInfo, rfl, rfl, rfl⟩

/-- **Not all correct calls succeed**: with the CEED backend, giving a concentration to a boundary that is a wall for the flow and has a Dirichlet condition for the sediment is
an error (the operator of a wall has no vector of boundary values), with the PETSc backend it succeeds, but has no effect. -/
theorem C119_wall_violated : ∃ (ops : List COp) (s' : BndState (TFluxMem × List TBnd)) (b : TBatch) (ss : List TBState),
    (exSedCall 0.25).Correct exSedP [exWallInfo] ∧ createFluxT .roe exCP 1 (fun _ _ _ => none) exCT [exTWall.fresh 1] = some ops ∧
    bndRun exSedP [exWallInfo] (ceedWrite 1 2) (ceedTBndEval 1 2) [exSedCall 0.25] ⟨ops, []⟩ = .error ∧
    createTracerInteriorB exSqT 1 = some b ∧ ([exTWall].map (TBnd.fresh 1)).mapM (createTracerBoundaryB exSqT 1) = some ss ∧
    bndRun exSedP [exWallInfo] petscTWrite (petscTBndEval .roe exCP 1 exSqT 2) [exSedCall 0.25] ⟨(⟨b, ss⟩, [exTWall].map (TBnd.fresh 1)), []⟩ = .ok s' ∧
    lastValue exSedP [exSedCall 0.25] 0 0 3 = 0.25 ∧ lastValue exSedP [] 0 0 3 = 0 ∧
    ∀ u, tracerDivergence .roe exCP 1 (meshOf exSqT [] 2) (tbEdgesOf 1 exSqT (givenTBnds exSedP [exSedCall 0.25] [exTWall])) (tStateAt 1 u) =
      tracerDivergence .roe exCP 1 (meshOf exSqT [] 2) (tbEdgesOf 1 exSqT (givenTBnds exSedP [] [exTWall])) (tStateAt 1 u) := by
  have hv : ∀ B ∈ [exTWall.fresh 1], B.Valid 3 1 := by
    intro B hB
    obtain rfl := List.mem_singleton.mp hB
    exact ⟨exTWall_valid.1, rfl⟩
  obtain ⟨ops, e1, -, -⟩ := createFluxT_spec .roe exCP (fun _ _ _ => none) exCT_valid hv
  have hv7 : ∀ B ∈ [exTWall], ∀ e < B.ids.len, B.ids.val e < 7 := by
    intro B hB e he
    obtain rfl := List.mem_singleton.mp hB
    show 2 < 7
    omega
  obtain ⟨b, ss, e2, e3, -⟩ := C108_tracer_create (Bs := [exTWall].map (TBnd.fresh 1)) (nt := 1) exSqT_valid (by
    intro B hB
    obtain rfl := List.mem_singleton.mp hB
    exact ⟨hv7 exTWall (by simp), rfl⟩)
  obtain ⟨-, h2, -⟩ := C119_setters .roe exCP (fun _ _ _ => none) (nt := 1) (by norm_num) exCT_valid (Bs := [exTWall]) (by
      intro B hB; obtain rfl := List.mem_singleton.mp hB; exact exTWall_valid.1) (p := exSedP) rfl (infos := [exWallInfo]) rfl [] (by simp) e1 rfl
    (fun l dt u h => by simp at h) (a := exSedCall 0.25) rfl (fun _ _ h => by cases h)
  obtain ⟨h3, -⟩ := C119_petsc_setters (sv := .roe) (P := exCP) (nt := 1) (by decide) exSqT_valid hv7 (p := exSedP) rfl (infos := [exWallInfo]) rfl [] (by simp) e2 e3 rfl
    (a := exSedCall 0.25) rfl (fun _ _ h => by cases h)
  obtain ⟨s', h4, -⟩ := h3 (exSedCall_wall _)
  refine ⟨ops, s', b, ss, exSedCall_wall _, e1, h2 (exSedCall_wall _) exTWall rfl (by intro h; cases h), e2, e3, h4, ?_, ?_, fun u => ?_⟩
  · simp [lastValue, exSedCall, BndCall.gives, exSedP]
  · simp [lastValue]
  · exact C119_ignored (calls := []) (a := exSedCall 0.25) u (by
      intro B hB
      obtain rfl : exTWall = B := Option.some.inj hB
      rfl)

/-! ### Examples -/

/-- values for the two edges of `exCB2`, twice, and an evaluation between: the second call counts, and only for its boundary -/
noncomputable def exBndCalls : List BndCall :=
  [.flow 0 2 3 ⟨6, fun _ => 7⟩, .evaluate 1 exCU, .flow 0 2 3 ⟨6, fun j => if j % 3 = 0 then 1 else 0⟩]

def exOpenInfo2 : BndInfo := ⟨2, .dirichlet, none, none, none⟩

theorem exBndCalls_sized : ∀ a ∈ exBndCalls, a.Sized (3 * 2) := by
  intro a ha
  simp only [exBndCalls, List.mem_cons, List.not_mem_nil, or_false] at ha
  rcases ha with rfl | rfl | rfl <;> rfl

theorem exBndCalls_last : lastValue ⟨0, false, false⟩ exBndCalls 0 1 0 = 1 ∧ lastValue ⟨0, false, false⟩ exBndCalls 1 1 0 = 0 := by
  constructor
  · simp [lastValue, exBndCalls, BndCall.gives]
  · norm_num [lastValue, exBndCalls, List.findSome?, BndCall.gives]

theorem exCB2_ids : ∀ B ∈ [exCB2], ∀ e < B.ids.len, B.ids.val e < 3 := by
  intro B hB
  obtain rfl := List.mem_singleton.mp hB
  exact exCB2_valid.1

/-- these calls succeed -/
theorem exBndCalls_ok {ops : List COp} (h1 : createFluxC exCP exCT exCT.vz ([exCB2].map Bnd.fresh) = some ops) :
    ∃ s, bndRun ⟨0, false, false⟩ [exOpenInfo2] (ceedWrite 1 4) (ceedBndEval 2) exBndCalls ⟨ops, []⟩ = .ok s := by
  have hty : ∀ (b : ℕ) (i : BndInfo) (B : Bnd), [exOpenInfo2][b]? = some i → [exCB2][b]? = some B → (i.flow = .dirichlet ↔ B.type = .dirichlet) := by
    intro b i B h2 h3
    cases b with
    | zero => cases h2; cases h3; exact ⟨fun _ => rfl, fun _ => rfl⟩
    | succ b => simp at h2
  have hc : ∀ v, (BndCall.flow 0 2 3 v).Correct ⟨0, false, false⟩ [exOpenInfo2] := fun v => ⟨rfl, le_refl _, exOpenInfo2, rfl, rfl, rfl⟩
  obtain ⟨s1, e1, -⟩ := (C119_flow_setter exCP exCT_valid exCB2_ids (p := ⟨0, false, false⟩) rfl (infos := [exOpenInfo2]) rfl hty [] (by simp) h1 rfl 0 2 3
    (v := ⟨6, fun _ => 7⟩) rfl).1 (hc _)
  obtain ⟨s2, f, e2, -⟩ := C119_ceed exCP exCT_valid exCB2_ids (p := ⟨0, false, false⟩) rfl (infos := [exOpenInfo2]) rfl [.flow 0 2 3 ⟨6, fun _ => 7⟩]
    (by intro a ha; obtain rfl := List.mem_singleton.mp ha; rfl) h1 e1 1 (u := exCU) rfl
  obtain ⟨s3, e3, -⟩ := (C119_flow_setter exCP exCT_valid exCB2_ids (p := ⟨0, false, false⟩) rfl (infos := [exOpenInfo2]) rfl hty
    [.flow 0 2 3 ⟨6, fun _ => 7⟩, .evaluate 1 exCU] (by intro a ha; simp at ha; rcases ha with rfl | rfl <;> rfl) h1 e2 0 2 3
    (v := ⟨6, fun j => if j % 3 = 0 then 1 else 0⟩) rfl).1 (hc _)
  exact ⟨s3, e3⟩

example : ∃ ops s f, createFluxC exCP exCT exCT.vz ([exCB2].map Bnd.fresh) = some ops ∧
    bndRun ⟨0, false, false⟩ [exOpenInfo2] (ceedWrite 1 4) (ceedBndEval 2) (exBndCalls ++ [.evaluate 1 exCU]) ⟨ops, []⟩ = .ok s ∧ s.out.head? = some f ∧
    (∀ g, ceedDivergence exCP false (ceedMeshOf exCT (givenBnds ⟨0, false, false⟩ exBndCalls [exCB2]) 2) (stateAt exCU) = some g →
      f.val 1 = some ((g 0).comp 1)) := by
  obtain ⟨ops, h1, -⟩ := createFluxC_holds exCP exCT_valid exCT.vz (Bs := [exCB2].map Bnd.fresh) (by
    intro B hB; obtain rfl := List.mem_singleton.mp hB; exact ⟨exCB2_valid.1, rfl⟩)
  obtain ⟨s, hs⟩ := exBndCalls_ok h1
  obtain ⟨s', f, h2, h3, -, h4, -⟩ := C119_ceed exCP exCT_valid exCB2_ids (p := ⟨0, false, false⟩) rfl (infos := [exOpenInfo2]) rfl exBndCalls exBndCalls_sized h1 hs 1
    (u := exCU) rfl
  exact ⟨ops, s', f, h1, h2, by rw [h3]; rfl, fun g hg => h4 g hg 0 1 (by norm_num)⟩

/-- depth and concentration for the Dirichlet boundary `exTDB`, then an evaluation -/
example : ∃ ops s f, createFluxT .roe exCP 1 (fun _ _ _ => none) exCT ([exTDB].map (TBnd.fresh 1)) = some ops ∧
    bndRun exSedP [exOpenInfo] (ceedWrite 1 2) (ceedTBndEval 1 2)
      ([.flow 0 1 3 ⟨3, fun j => if j = 0 then 1 else 0⟩, exSedCall 0.25] ++ [.evaluate 1 exTU]) ⟨ops, []⟩ = .ok s ∧ s.out.head? = some f ∧ f.len = 8 ∧
    lastValue exSedP [.flow 0 1 3 ⟨3, fun j => if j = 0 then 1 else 0⟩, exSedCall 0.25] 0 0 3 = 0.25 ∧
    lastValue exSedP [.flow 0 1 3 ⟨3, fun j => if j = 0 then 1 else 0⟩, exSedCall 0.25] 0 0 0 = 1 := by
  have hB : ∀ B ∈ [exTDB], ∀ e < B.ids.len, B.ids.val e < 3 := by
    intro B hB
    obtain rfl := List.mem_singleton.mp hB
    exact exTDB_valid.1
  obtain ⟨ops, h1, -, -⟩ := createFluxT_spec .roe exCP (fun _ _ _ => none) exCT_valid (Bs := [exTDB].map (TBnd.fresh 1)) (nt := 1) (by
    intro B hB; obtain rfl := List.mem_singleton.mp hB; exact ⟨exTDB_valid.1, rfl⟩)
  have l0 : lastValue exSedP [.flow 0 1 3 ⟨3, fun j => if j = 0 then 1 else 0⟩, exSedCall 0.25] 0 0 0 = 1 := by
    simp [lastValue, exSedCall, BndCall.gives, exSedP]
  have l3 : lastValue exSedP [.flow 0 1 3 ⟨3, fun j => if j = 0 then 1 else 0⟩, exSedCall 0.25] 0 0 3 = 0.25 := by
    simp [lastValue, exSedCall, BndCall.gives, exSedP]
  obtain ⟨s1, e1, -⟩ := (C119_setters .roe exCP (fun _ _ _ => none) (nt := 1) (by norm_num) exCT_valid hB (p := exSedP) rfl (infos := [exOpenInfo]) rfl [] (by simp) h1 rfl
    (fun l dt u h => by simp at h) (a := .flow 0 1 3 ⟨3, fun j => if j = 0 then 1 else 0⟩) rfl (fun _ _ h => by cases h)).1
    ⟨rfl, le_refl _, exOpenInfo, rfl, rfl, rfl⟩ exTDB rfl rfl
  obtain ⟨s2, e2, -⟩ := (C119_setters .roe exCP (fun _ _ _ => none) (nt := 1) (by norm_num) exCT_valid hB (p := exSedP) rfl (infos := [exOpenInfo]) rfl
    [.flow 0 1 3 ⟨3, fun j => if j = 0 then 1 else 0⟩] (by intro a ha; obtain rfl := List.mem_singleton.mp ha; rfl) h1 e1
    (fun l dt u h => by have := h.subset (List.mem_append_right l (List.mem_singleton_self _)); simp at this) (a := exSedCall 0.25) rfl (fun _ _ h => by cases h)).1
    (exSedCall_open _) exTDB rfl rfl
  obtain ⟨s', f, h2, h3, h4, -⟩ := C119_tracers .roe exCP (fun _ _ _ => none) (nt := 1) (by norm_num) exCT_valid hB (p := exSedP) rfl (infos := [exOpenInfo]) rfl
    [.flow 0 1 3 ⟨3, fun j => if j = 0 then 1 else 0⟩, exSedCall 0.25] (by intro a ha; simp at ha; rcases ha with rfl | rfl <;> rfl) h1 e2 1 (u := exTU) rfl (by
      intro l dt u h B hB
      have hl : l = [.flow 0 1 3 ⟨3, fun j => if j = 0 then 1 else 0⟩, exSedCall 0.25] := by
        match l, h with
        | [], h => obtain ⟨t, ht⟩ := h; cases ht
        | [a], h => obtain ⟨t, ht⟩ := h; cases ht
        | [a, b], h => obtain ⟨t, ht⟩ := h; cases ht; rfl
        | a :: b :: c :: l, h => have := h.length_le; simp at this; omega
      subst hl
      obtain rfl := List.mem_singleton.mp hB
      intro _ e he _
      obtain rfl : e = 0 := by have : e < 1 := he; omega
      right
      show exCP.tinyH < (givenValues exSedP _ 0 1).val 0
      unfold givenValues
      dsimp only
      rw [if_pos (by decide), show lastValue exSedP _ 0 (0 / exSedP.total) (0 % exSedP.total) = 1 from l0]
      norm_num [exCP])
  exact ⟨ops, s', f, h1, h2, by rw [h3]; rfl, h4, l3, l0⟩

/-- wrong calls: a boundary that there is not, a wrong number of edges, a wrong number of values per edge -/
example : ¬ (BndCall.flow 1 2 3 ⟨6, fun _ => 7⟩).Correct ⟨0, false, false⟩ [exOpenInfo2] ∧ ¬ (BndCall.flow 0 1 3 ⟨3, fun _ => 7⟩).Correct ⟨0, false, false⟩ [exOpenInfo2] ∧
    ¬ (BndCall.flow 0 2 4 ⟨8, fun _ => 7⟩).Correct ⟨0, false, false⟩ [exOpenInfo2] := by
  refine ⟨?_, ?_, ?_⟩
  · rintro ⟨-, -, i, h, -⟩
    cases h
  · rintro ⟨-, -, i, h, h2, -⟩
    cases h
    cases h2
  · rintro ⟨h, -⟩
    cases h

example {ops : List COp} (h1 : createFluxC exCP exCT exCT.vz ([exCB2].map Bnd.fresh) = some ops) :
    bndRun ⟨0, false, false⟩ [exOpenInfo2] (ceedWrite 1 4) (ceedBndEval 2) [.flow 0 1 3 ⟨3, fun _ => 7⟩] ⟨ops, []⟩ = .error :=
  (C119_flow_setter exCP exCT_valid exCB2_ids (p := ⟨0, false, false⟩) rfl (infos := [exOpenInfo2]) rfl (by
    intro b i B h2 h3
    cases b with
    | zero => cases h2; cases h3; exact ⟨fun _ => rfl, fun _ => rfl⟩
    | succ b => simp at h2) [] (by simp) h1 rfl 0 1 3 (v := ⟨3, fun _ => 7⟩) rfl).2 (by rintro ⟨-, -, i, h, h2, -⟩; cases h; cases h2)

/-- the PETSc backend: values for a boundary of the two squares of `exSqT`, then an evaluation -/
example : ∃ M s f, createPetsc ⟨.hr, .xq2018⟩ exSqT exSqV ([exCB2].map Bnd.fresh) 2 = some M ∧
    bndRun ⟨0, false, false⟩ [exOpenInfo2] petscWrite (petscBndEval exParams ⟨.hr, .xq2018⟩ exSqT exSqV 2 2 exSqD.src exSqD.mat)
      ([.flow 0 2 3 ⟨6, fun j => if j % 3 = 0 then 1 else 0⟩] ++ [.evaluate 1 exCU]) ⟨((M, exSqD), [exCB2].map Bnd.fresh), []⟩ = .ok s ∧
    s.out = [f] ∧ f.len = 6 := by
  obtain ⟨M, h1, -⟩ := C112_create ⟨.hr, .xq2018⟩ exSqT_valid exSqV_valid (Bs := [exCB2].map Bnd.fresh) (by
    intro B hB; obtain rfl := List.mem_singleton.mp hB; exact ⟨fun e he => lt_trans (exCB2_valid.1 e he) (by norm_num), rfl⟩)
  have hB : ∀ B ∈ [exCB2], ∀ e < B.ids.len, B.ids.val e < 7 := by
    intro B hB
    obtain rfl := List.mem_singleton.mp hB
    exact fun e he => lt_trans (exCB2_valid.1 e he) (by norm_num)
  obtain ⟨s0, hr, h0⟩ := (C119_petsc_flow_setter (P := exParams) exSqT_valid exSqV_valid hB (p := ⟨0, false, false⟩) rfl
    (infos := [exOpenInfo2]) rfl (src := exSqD.src) rfl (mat := exSqD.mat) rfl [] (by simp) h1 (D := exSqD) rfl rfl 0 2 3
    (v := ⟨6, fun j => if j % 3 = 0 then 1 else 0⟩) rfl).1 ⟨rfl, le_refl _, exOpenInfo2, rfl, rfl, rfl⟩
  obtain ⟨s', f, h2, h3, h4, -⟩ := C119_petsc (P := exParams) exSqT_valid exSqV_valid hB (p := ⟨0, false, false⟩) rfl
    (infos := [exOpenInfo2]) rfl (src := exSqD.src) rfl (mat := exSqD.mat) rfl [.flow 0 2 3 ⟨6, fun j => if j % 3 = 0 then 1 else 0⟩]
    (by intro a ha; obtain rfl := List.mem_singleton.mp ha; rfl) h1 (D := exSqD) rfl hr 1 (u := exCU) rfl
  exact ⟨M, s', f, h1, h2, by rw [h3, h0], h4⟩

/-- the same with one class of sediment -/
example : ∃ b ss s f, createTracerInteriorB exSqT 1 = some b ∧ ([exTDB].map (TBnd.fresh 1)).mapM (createTracerBoundaryB exSqT 1) = some ss ∧
    bndRun exSedP [exOpenInfo] petscTWrite (petscTBndEval .roe exCP 1 exSqT 2) ([exSedCall 0.25] ++ [.evaluate 1 exTU])
      ⟨(⟨b, ss⟩, [exTDB].map (TBnd.fresh 1)), []⟩ = .ok s ∧ s.out.head? = some f ∧ f.len = 8 := by
  have hB : ∀ B ∈ [exTDB], ∀ e < B.ids.len, B.ids.val e < 7 := by
    intro B hB e he
    obtain rfl := List.mem_singleton.mp hB
    show 2 < 7
    omega
  obtain ⟨b, ss, e2, e3, -⟩ := C108_tracer_create (Bs := [exTDB].map (TBnd.fresh 1)) (nt := 1) exSqT_valid (by
    intro B hB'
    obtain rfl := List.mem_singleton.mp hB'
    exact ⟨hB exTDB (by simp), rfl⟩)
  obtain ⟨s, h4, -⟩ := (C119_petsc_setters (sv := .roe) (P := exCP) (nt := 1) (by decide) exSqT_valid hB (p := exSedP) rfl (infos := [exOpenInfo]) rfl [] (by simp) e2 e3 rfl
    (a := exSedCall 0.25) rfl (fun _ _ h => by cases h)).1 (exSedCall_open _)
  obtain ⟨s', f, h5, h6, h7, -⟩ := C119_petsc_tracers (sv := .roe) (P := exCP) (nt := 1) (by decide) exSqT_valid hB (p := exSedP) rfl (infos := [exOpenInfo]) rfl
    [exSedCall 0.25] (by intro a ha; obtain rfl := List.mem_singleton.mp ha; rfl) e2 e3 h4 1 (u := exTU) rfl
  exact ⟨b, ss, s', f, e2, e3, h5, by rw [h6]; rfl, h7⟩

end RDy
