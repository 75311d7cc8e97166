import Verif.Model.ApiRun
import Verif.Props.Data
import Verif.Props.CeedTSource
import Verif.Props.PetscRhs
import Mathlib.Tactic

/-!
# What is set is what the next right-hand side uses (C118)

A caller sets sources and Manning coefficients for regions or for the whole domain, in any order and as often as they like, between the evaluations that the time stepper
makes. The property: every evaluation, with either backend, treats each owned cell with the source and the coefficient given to that cell by the last call that
concerns it.
-/

namespace RDy

/-! ### Specification -/

/-- Specification: the number of owned cells before cell `c`. -/
def rankOf (own : ℕ → Bool) (c : ℕ) : ℕ := ((List.range c).filter own).length

/-- Specification: what a call for region `r` gives to cell `c`, if it is one of its cells: the entry at the position of `c` among the owned cells of the region. -/
def Region.gives (own : ℕ → Bool) (r : Region) (c : ℕ) (v : ℕ → Option ℝ) : Option ℝ :=
  if c ∈ r.cells then v ((r.cells.filter own).idxOf c) else none

/-- Specification: the source that a call gives to component `k` of cell `c`, if it concerns it. -/
def ApiCall.source (regions : List Region) (own : ℕ → Bool) (c k : ℕ) : ApiCall → Option ℝ
  | .regional rid comp vs => if comp = k then (regions.find? fun r => r.id = rid).bind fun r => r.gives own c fun i => vs[i]? else none
  | .homogeneous rid comp v => if comp = k then (regions.find? fun r => r.id = rid).bind fun r => r.gives own c fun _ => some v else none
  | .domain comp vs => if comp = k then vs[rankOf own c]? else none
  | _ => none

/-- Specification: the Manning coefficient that a call gives to cell `c`, if it concerns it. -/
def ApiCall.manning (regions : List Region) (own : ℕ → Bool) (c : ℕ) : ApiCall → Option ℝ
  | .regionalManning index vs => (regions[index.toNat]?).bind fun r => r.gives own c fun i => vs[i]?
  | .domainManning vs => vs[rankOf own c]?
  | _ => none

/-- Specification: the value of the last call that gives one; 0 if there is none. -/
def lastGiven (f : ApiCall → Option ℝ) (calls : List ApiCall) : ℝ := (calls.reverse.findSome? f).getD 0

/-- Specification: the source and the Manning coefficient that a caller has given to cell `c`. -/
def givenSource (regions : List Region) (own : ℕ → Bool) (calls : List ApiCall) (c k : ℕ) : ℝ :=
  lastGiven (ApiCall.source regions own c k) calls

/-- see `givenSource` -/
def givenManning (regions : List Region) (own : ℕ → Bool) (calls : List ApiCall) (c : ℕ) : ℝ :=
  lastGiven (ApiCall.manning regions own c) calls

/-- Specification: the cells are numbered as the mesh does it (C16), and each region lists cells of this process once. -/
structure Numbered (cm : CellMap) (nc N : ℕ) (regions : List Region) : Prop where
  count : N = rankOf cm.own nc
  number : ∀ c < nc, cm.own c = true → cm.l2o c = rankOf cm.own c
  cells : ∀ r ∈ regions, ∀ c ∈ r.cells, c < nc
  nodup : ∀ r ∈ regions, r.cells.Nodup

/-! ### Numbers of cells -/

/-- the owned cells in order -/
def ownedCells (own : ℕ → Bool) (nc : ℕ) : List ℕ := (List.range nc).filter own

theorem ownedCells_get {own : ℕ → Bool} {nc o c : ℕ} : (ownedCells own nc)[o]? = some c ↔ c < nc ∧ own c = true ∧ rankOf own c = o := by
  have key : ∀ c, c < nc → own c = true → (ownedCells own nc)[rankOf own c]? = some c := by
    intro c hc ho
    obtain ⟨h1, h2⟩ := ownedList_getD (⟨⟨nc, own⟩, ⟨0, id⟩, ⟨0, fun _ => 0⟩, ⟨0, fun _ => 0⟩, 0⟩ : SCells) hc ho
    have h3 : rankOf own c < (ownedCells own nc).length := h1
    have h4 : (ownedCells own nc).getD (rankOf own c) 0 = c := h2
    rw [List.getD_eq_getElem _ _ h3] at h4
    rw [List.getElem?_eq_getElem h3, h4]
  constructor
  · intro h
    have hm := List.mem_of_getElem? h
    obtain ⟨h1, h2⟩ := List.mem_filter.mp hm
    have h1 := List.mem_range.mp h1
    refine ⟨h1, h2, ?_⟩
    have h3 := key c h1 h2
    obtain ⟨i1, i2⟩ := List.getElem?_eq_some_iff.mp h
    obtain ⟨j1, j2⟩ := List.getElem?_eq_some_iff.mp h3
    exact (List.Nodup.getElem_inj_iff (List.nodup_range.filter own)).mp (j2.trans i2.symm)
  · rintro ⟨h1, h2, rfl⟩
    exact key c h1 h2

theorem ownedCells_lt {own : ℕ → Bool} {nc c : ℕ} (hc : c < nc) (ho : own c = true) : rankOf own c < rankOf own nc :=
  (List.getElem?_eq_some_iff.mp (ownedCells_get.mpr ⟨hc, ho, rfl⟩)).1

/-! ### One setter -/

theorem idxOf_map_inj {l : List ℕ} {f : ℕ → ℕ} (hf : ∀ a ∈ l, ∀ b ∈ l, f a = f b → a = b) (hnd : l.Nodup) : (l.map f).Nodup :=
  List.Nodup.map_on (fun a ha b hb h => hf a ha b hb h) hnd

/-- the entries after a setter has replaced component `comp` of a region -/
theorem restore_region {cm : CellMap} {nc N : ℕ} {regions : List Region} (h : Numbered cm nc N regions) {r : Region} (hr : r ∈ regions) (n comp : ℕ)
    (v : ℕ → ℝ) (data : ℕ → ℝ) (o k : ℕ) (hk : k < n) :
    restoreRegionData n (r.ownedIds cm) (fun c i => if c = comp then v i else getRegionData n (r.ownedIds cm) data c i) data (n * o + k) =
      match (ownedCells cm.own nc)[o]? with
      | some c => if comp = k ∧ c ∈ r.cells then v ((r.cells.filter cm.own).idxOf c) else data (n * o + k)
      | none => data (n * o + k) := by
  have hmem : ∀ c ∈ r.cells.filter cm.own, c < nc ∧ cm.own c = true := fun c hc =>
    ⟨h.cells r hr c (List.mem_filter.mp hc).1, (List.mem_filter.mp hc).2⟩
  have hinj : ∀ a ∈ r.cells.filter cm.own, ∀ b ∈ r.cells.filter cm.own, cm.l2o a = cm.l2o b → a = b := by
    intro a ha b hb he
    obtain ⟨a1, a2⟩ := hmem a ha
    obtain ⟨b1, b2⟩ := hmem b hb
    rw [h.number a a1 a2, h.number b b1 b2] at he
    have e1 := ownedCells_get.mpr ⟨a1, a2, he⟩
    have e2 := ownedCells_get.mpr ⟨b1, b2, rfl⟩
    exact Option.some.inj (e1.symm.trans e2)
  have hnd : (r.ownedIds cm).Nodup := idxOf_map_inj hinj ((h.nodup r hr).filter _)
  obtain ⟨h1, h2⟩ := restore_comp n (r.ownedIds cm) hnd comp v data
  cases hc : (ownedCells cm.own nc)[o]? with
  | none =>
    refine h2 o k hk (Or.inr fun ho => ?_)
    obtain ⟨c, m1, m2⟩ := List.mem_map.mp ho
    obtain ⟨c1, c2⟩ := hmem c m1
    rw [h.number c c1 c2] at m2
    rw [ownedCells_get.mpr ⟨c1, c2, m2⟩] at hc
    cases hc
  | some c =>
    dsimp only
    obtain ⟨c1, c2, c3⟩ := ownedCells_get.mp hc
    by_cases hy : comp = k ∧ c ∈ r.cells
    · rw [if_pos hy]
      obtain ⟨rfl, hy2⟩ := hy
      have hm : c ∈ r.cells.filter cm.own := List.mem_filter.mpr ⟨hy2, c2⟩
      have hi : (r.cells.filter cm.own).idxOf c < (r.ownedIds cm).length := by
        unfold Region.ownedIds; rw [List.length_map]; exact List.idxOf_lt_length_iff.mpr hm
      have := h1 _ hi hk
      have hg : (r.ownedIds cm)[(r.cells.filter cm.own).idxOf c] = o := by
        refine Option.some.inj ((List.getElem?_eq_getElem hi).symm.trans ?_)
        show ((r.cells.filter cm.own).map cm.l2o)[(r.cells.filter cm.own).idxOf c]? = some o
        rw [List.getElem?_map, List.getElem?_idxOf hm, Option.map_some, h.number c c1 c2, c3]
      rw [hg] at this
      exact this
    · rw [if_neg hy]
      refine h2 o k hk ?_
      by_cases hck : k = comp
      · refine Or.inr fun ho => hy ⟨hck.symm, ?_⟩
        obtain ⟨c', m1, m2⟩ := List.mem_map.mp ho
        obtain ⟨d1, d2⟩ := hmem c' m1
        rw [h.number c' d1 d2] at m2
        have := Option.some.inj ((ownedCells_get.mpr ⟨d1, d2, m2⟩).symm.trans hc)
        rw [← this]
        exact (List.mem_filter.mp m1).1
      · exact Or.inl hck

/-- the entries after a setter has replaced component `comp` of the whole domain -/
theorem restore_domain (own : ℕ → Bool) (nc n comp : ℕ) (v : ℕ → ℝ) (data : ℕ → ℝ) (o k : ℕ) (hk : k < n) :
    restoreRegionData n (List.range (rankOf own nc)) (fun c i => if c = comp then v i else getRegionData n (List.range (rankOf own nc)) data c i) data (n * o + k) =
      match (ownedCells own nc)[o]? with
      | some c => if comp = k then v (rankOf own c) else data (n * o + k)
      | none => data (n * o + k) := by
  obtain ⟨h1, h2⟩ := restore_comp n (List.range (rankOf own nc)) List.nodup_range comp v data
  cases hc : (ownedCells own nc)[o]? with
  | none =>
    refine h2 o k hk (Or.inr fun ho => ?_)
    have : o < (ownedCells own nc).length := List.mem_range.mp ho
    rw [List.getElem?_eq_getElem this] at hc
    cases hc
  | some c =>
    dsimp only
    obtain ⟨c1, c2, c3⟩ := ownedCells_get.mp hc
    by_cases hy : comp = k
    · subst hy
      rw [if_pos rfl]
      have hi : o < (List.range (rankOf own nc)).length := by rw [List.length_range, ← c3]; exact ownedCells_lt c1 c2
      have := h1 o hi hk
      rw [List.getElem_range] at this
      rw [this, c3]
    · rw [if_neg hy]
      exact h2 o k hk (Or.inl (Ne.symm hy))

/-! ### Histories -/

theorem lastGiven_snoc (f : ApiCall → Option ℝ) (l : List ApiCall) (a : ApiCall) : lastGiven f (l ++ [a]) = (f a).getD (lastGiven f l) := by
  unfold lastGiven
  rw [List.reverse_append, List.reverse_singleton, List.singleton_append, List.findSome?_cons]
  cases f a <;> rfl

theorem apiRun_snoc {σ : Type} {n N : ℕ} {regions : List SrcRegion} {ev : σ → SCall → Option (σ × Arr Num)} :
    ∀ {l : List ApiCall} {a : ApiCall} {s s' : ApiState σ}, apiRun n N regions ev (l ++ [a]) s = .ok s' ↔
      ∃ s1, apiRun n N regions ev l s = .ok s1 ∧ apiStep n N regions ev s1 a = .ok s' := by
  intro l
  induction l with
  | nil =>
    intro a s s'
    constructor
    · intro h
      refine ⟨s, rfl, ?_⟩
      rw [List.nil_append] at h
      unfold apiRun at h
      cases hs : apiStep n N regions ev s a with
      | ok s1 => rw [hs] at h; exact h
      | error => rw [hs] at h; cases h
      | ub => rw [hs] at h; cases h
    · rintro ⟨s1, h1, h2⟩
      cases h1
      rw [List.nil_append]
      unfold apiRun
      rw [h2]
      rfl
  | cons b l ih =>
    intro a s s'
    rw [List.cons_append]
    unfold apiRun
    cases hs : apiStep n N regions ev s b with
    | ok s1 => exact ih
    | error => exact ⟨nofun, fun ⟨_, h, _⟩ => by cases h⟩
    | ub => exact ⟨nofun, fun ⟨_, h, _⟩ => by cases h⟩

/-- a vector holds, by owned number, what was given to the cells -/
def HoldsGiven (cm : CellMap) (nc N n : ℕ) (a : Arr ℝ) (f : ℕ → ℕ → ℝ) : Prop :=
  a.len = n * N ∧ ∀ o k, k < n → a.val (n * o + k) = match (ownedCells cm.own nc)[o]? with | some c => f c k | none => 0

theorem holds_region {cm : CellMap} {nc N : ℕ} {regions : List Region} (h : Numbered cm nc N regions) {n : ℕ} {r : Region} (hr : r ∈ regions)
    {a : Arr ℝ} {f : ℕ → ℕ → ℝ} (ha : HoldsGiven cm nc N n a f) (comp : ℕ) (v : ℕ → ℝ) :
    HoldsGiven cm nc N n
      ⟨a.len, restoreRegionData n (r.ownedIds cm) (fun c i => if c = comp then v i else getRegionData n (r.ownedIds cm) a.val c i) a.val⟩
      (fun c k => if comp = k ∧ c ∈ r.cells then v ((r.cells.filter cm.own).idxOf c) else f c k) := by
  refine ⟨ha.1, fun o k hk => ?_⟩
  refine (restore_region h hr n comp v a.val o k hk).trans ?_
  have h2 := ha.2 o k hk
  cases hc : (ownedCells cm.own nc)[o]? with
  | none => rw [hc] at h2; exact h2
  | some c => rw [hc] at h2; dsimp only at h2 ⊢; rw [h2]

theorem holds_domain {cm : CellMap} {nc N : ℕ} {regions : List Region} (h : Numbered cm nc N regions) {n : ℕ}
    {a : Arr ℝ} {f : ℕ → ℕ → ℝ} (ha : HoldsGiven cm nc N n a f) (comp : ℕ) (v : ℕ → ℝ) :
    HoldsGiven cm nc N n ⟨a.len, restoreRegionData n (List.range N) (fun c i => if c = comp then v i else getRegionData n (List.range N) a.val c i) a.val⟩
      (fun c k => if comp = k then v (rankOf cm.own c) else f c k) := by
  refine ⟨ha.1, fun o k hk => ?_⟩
  have h1 := restore_domain cm.own nc n comp v a.val o k hk
  rw [← h.count] at h1
  refine h1.trans ?_
  have h2 := ha.2 o k hk
  cases hc : (ownedCells cm.own nc)[o]? with
  | none => rw [hc] at h2; exact h2
  | some c => rw [hc] at h2; dsimp only at h2 ⊢; rw [h2]

theorem holds_congr {cm : CellMap} {nc N n : ℕ} {a : Arr ℝ} {f g : ℕ → ℕ → ℝ} (ha : HoldsGiven cm nc N n a f)
    (hfg : ∀ c k, c < nc → cm.own c = true → k < n → f c k = g c k) : HoldsGiven cm nc N n a g := by
  refine ⟨ha.1, fun o k hk => (ha.2 o k hk).trans ?_⟩
  cases hc : (ownedCells cm.own nc)[o]? with
  | none => rfl
  | some c =>
    obtain ⟨c1, c2, _⟩ := ownedCells_get.mp hc
    exact hfg c k c1 c2 hk

theorem find_ownedRegions (cm : CellMap) (regions : List Region) (rid : ℤ) :
    regionOfId (ownedRegions cm regions) rid = (regions.find? fun r => r.id = rid).map fun r => ⟨r.id, r.ownedIds cm⟩ := by
  unfold regionOfId ownedRegions
  rw [List.find?_map]
  rfl

/-- the length of the list of values of a region is the number of its owned cells -/
theorem gives_list {cm : CellMap} {r : Region} {vs : List ℝ} (hl : vs.length = (r.ownedIds cm).length) {c : ℕ} (ho : cm.own c = true) (x : ℝ) :
    ((r.gives cm.own c fun i => vs[i]?).getD x) = if c ∈ r.cells then vs.getD ((r.cells.filter cm.own).idxOf c) 0 else x := by
  unfold Region.gives
  by_cases hc : c ∈ r.cells
  · rw [if_pos hc, if_pos hc]
    have hi : (r.cells.filter cm.own).idxOf c < vs.length := by
      rw [hl]; unfold Region.ownedIds; rw [List.length_map]; exact List.idxOf_lt_length_iff.mpr (List.mem_filter.mpr ⟨hc, ho⟩)
    dsimp only
    rw [List.getElem?_eq_getElem hi, List.getD_eq_getElem _ _ hi]
    rfl
  · rw [if_neg hc, if_neg hc]
    rfl

theorem onVector_ok {n : ℕ} {owned : List ℕ} {f : (ℕ → ℝ) → Res (ℕ → ℝ)} {a b : Arr ℝ} (h : onVector n owned f a = .ok b) :
    f a.val = .ok b.val ∧ b.len = a.len := by
  unfold onVector at h
  cases hf : f a.val with
  | ok d =>
    rw [hf] at h
    dsimp only at h
    by_cases hb : ∀ o ∈ owned, n * o + n ≤ a.len
    · rw [if_pos hb] at h
      cases h
      exact ⟨rfl, rfl⟩
    · rw [if_neg hb] at h
      cases h
  | error => rw [hf] at h; cases h
  | ub => rw [hf] at h; cases h

/-- one call keeps the books -/
theorem apiStep_holds {σ : Type} {cm : CellMap} {nc N : ℕ} {regions : List Region} (h : Numbered cm nc N regions) {n : ℕ}
    {ev : σ → SCall → Option (σ × Arr Num)} {s s' : ApiState σ} {calls : List ApiCall} {a : ApiCall}
    (he : HoldsGiven cm nc N n s.ext (givenSource regions cm.own calls)) (hm : HoldsGiven cm nc N 1 s.mat fun c _ => givenManning regions cm.own calls c)
    (hs : apiStep n N (ownedRegions cm regions) ev s a = .ok s') :
    HoldsGiven cm nc N n s'.ext (givenSource regions cm.own (calls ++ [a])) ∧
      HoldsGiven cm nc N 1 s'.mat fun c _ => givenManning regions cm.own (calls ++ [a]) c := by
  have hsn : ∀ c k, givenSource regions cm.own (calls ++ [a]) c k = (a.source regions cm.own c k).getD (givenSource regions cm.own calls c k) :=
    fun c k => lastGiven_snoc _ _ _
  have hmn : ∀ c, givenManning regions cm.own (calls ++ [a]) c = (a.manning regions cm.own c).getD (givenManning regions cm.own calls c) :=
    fun c => lastGiven_snoc _ _ _
  cases a with
  | evaluate dt u fd =>
    unfold apiStep at hs
    dsimp only at hs
    cases hv : ev s.mem ⟨dt, u, s.ext, s.mat, fd⟩ with
    | none => rw [hv] at hs; cases hs
    | some r =>
      rw [hv] at hs
      cases hs
      exact ⟨holds_congr he fun c k _ _ _ => (hsn c k).symm, holds_congr hm fun c k _ _ _ => (hmn c).symm⟩
  | regional rid comp vs =>
    unfold apiStep at hs
    dsimp only at hs
    cases hv : onVector n (ownedOfId (ownedRegions cm regions) rid) (setRegional n (ownedRegions cm regions) rid comp vs) s.ext with
    | error => rw [hv] at hs; cases hs
    | ub => rw [hv] at hs; cases hs
    | ok b =>
      rw [hv] at hs
      cases hs
      refine ⟨?_, holds_congr hm fun c k _ _ _ => (hmn c).symm⟩
      dsimp only
      obtain ⟨b1, b2⟩ := onVector_ok hv
      obtain ⟨bl, bv⟩ := b
      obtain rfl : bl = s.ext.len := b2
      dsimp only at b1
      unfold setRegional at b1
      rw [find_ownedRegions] at b1
      have hsrc : ∀ c k, (ApiCall.regional rid comp vs).source regions cm.own c k =
        if comp = k then (regions.find? fun r => r.id = rid).bind fun r => r.gives cm.own c fun i => vs[i]? else none := fun _ _ => rfl
      cases hf : regions.find? fun r => r.id = rid with
      | none =>
        rw [hf] at b1
        cases b1
        refine holds_congr he fun c k _ _ _ => ?_
        rw [hsn, hsrc, hf]
        simp
      | some r =>
        rw [hf] at b1
        have hr := List.mem_of_find?_eq_some hf
        dsimp only [Option.map_some] at b1
        by_cases hl : vs.length = (r.ownedIds cm).length
        · rw [if_neg (not_not.mpr hl)] at b1
          by_cases h0 : r.ownedIds cm = []
          · rw [if_pos h0] at b1
            cases b1
            refine holds_congr he fun c k _ ho _ => ?_
            rw [hsn, hsrc, hf]
            by_cases hck : comp = k
            · rw [if_pos hck, Option.bind_some, gives_list hl ho, if_neg]
              intro hc
              have : c ∈ r.cells.filter cm.own := List.mem_filter.mpr ⟨hc, ho⟩
              rw [List.map_eq_nil_iff.mp h0] at this
              cases this
            · rw [if_neg hck]; rfl
          · rw [if_neg h0] at b1
            by_cases hcn : n ≤ comp
            · rw [if_pos hcn] at b1; cases b1
            · rw [if_neg hcn] at b1
              cases b1
              refine holds_congr (holds_region h hr he comp fun i => vs.getD i 0) fun c k _ ho _ => ?_
              rw [hsn, hsrc, hf]
              by_cases hck : comp = k
              · rw [if_pos hck, Option.bind_some, gives_list hl ho]
                by_cases hc : c ∈ r.cells
                · rw [if_pos ⟨hck, hc⟩, if_pos hc]
                · rw [if_neg (fun h => hc h.2), if_neg hc]
              · rw [if_neg hck, if_neg (fun h => hck h.1)]; rfl
        · rw [if_pos hl] at b1; cases b1
  | homogeneous rid comp v =>
    unfold apiStep at hs
    dsimp only at hs
    cases hv : onVector n (ownedOfId (ownedRegions cm regions) rid) (setHomogeneous n (ownedRegions cm regions) rid comp v) s.ext with
    | error => rw [hv] at hs; cases hs
    | ub => rw [hv] at hs; cases hs
    | ok b =>
      rw [hv] at hs
      cases hs
      refine ⟨?_, holds_congr hm fun c k _ _ _ => (hmn c).symm⟩
      dsimp only
      obtain ⟨b1, b2⟩ := onVector_ok hv
      obtain ⟨bl, bv⟩ := b
      obtain rfl : bl = s.ext.len := b2
      dsimp only at b1
      unfold setHomogeneous at b1
      rw [find_ownedRegions] at b1
      have hsrc : ∀ c k, (ApiCall.homogeneous rid comp v).source regions cm.own c k =
        if comp = k then (regions.find? fun r => r.id = rid).bind fun r => r.gives cm.own c fun _ => some v else none := fun _ _ => rfl
      cases hf : regions.find? fun r => r.id = rid with
      | none =>
        rw [hf] at b1
        cases b1
        refine holds_congr he fun c k _ _ _ => ?_
        rw [hsn, hsrc, hf]
        simp
      | some r =>
        rw [hf] at b1
        have hr := List.mem_of_find?_eq_some hf
        dsimp only [Option.map_some] at b1
        by_cases h0 : r.ownedIds cm = []
        · rw [if_pos h0] at b1
          cases b1
          refine holds_congr he fun c k _ ho _ => ?_
          rw [hsn, hsrc, hf]
          by_cases hck : comp = k
          · rw [if_pos hck, Option.bind_some]
            unfold Region.gives
            rw [if_neg]
            · rfl
            intro hc
            have : c ∈ r.cells.filter cm.own := List.mem_filter.mpr ⟨hc, ho⟩
            rw [List.map_eq_nil_iff.mp h0] at this
            cases this
          · rw [if_neg hck]; rfl
        · rw [if_neg h0] at b1
          by_cases hcn : n ≤ comp
          · rw [if_pos hcn] at b1; cases b1
          · rw [if_neg hcn] at b1
            cases b1
            refine holds_congr (holds_region h hr he comp fun _ => v) fun c k _ ho _ => ?_
            rw [hsn, hsrc, hf]
            by_cases hck : comp = k
            · rw [if_pos hck, Option.bind_some]
              unfold Region.gives
              by_cases hc : c ∈ r.cells
              · rw [if_pos ⟨hck, hc⟩, if_pos hc]; rfl
              · rw [if_neg (fun h => hc h.2), if_neg hc]; rfl
            · rw [if_neg hck, if_neg (fun h => hck h.1)]; rfl
  | domain comp vs =>
    unfold apiStep at hs
    dsimp only at hs
    cases hv : onVector n (List.range N) (setDomain n N comp vs) s.ext with
    | error => rw [hv] at hs; cases hs
    | ub => rw [hv] at hs; cases hs
    | ok b =>
      rw [hv] at hs
      cases hs
      refine ⟨?_, holds_congr hm fun c k _ _ _ => (hmn c).symm⟩
      dsimp only
      obtain ⟨b1, b2⟩ := onVector_ok hv
      obtain ⟨bl, bv⟩ := b
      obtain rfl : bl = s.ext.len := b2
      dsimp only at b1
      unfold setDomain at b1
      by_cases hl : vs.length = N
      · rw [if_neg (not_not.mpr hl)] at b1
        by_cases hcn : n ≤ comp
        · rw [if_pos hcn] at b1; cases b1
        · rw [if_neg hcn] at b1
          cases b1
          refine holds_congr (holds_domain h he comp fun i => vs.getD i 0) fun c k hc ho _ => ?_
          rw [hsn]
          show _ = (if comp = k then vs[rankOf cm.own c]? else none).getD _
          by_cases hck : comp = k
          · have hi : rankOf cm.own c < vs.length := by rw [hl, h.count]; exact ownedCells_lt hc ho
            rw [if_pos hck, if_pos hck, List.getElem?_eq_getElem hi, List.getD_eq_getElem _ _ hi]
            rfl
          · rw [if_neg hck, if_neg hck]; rfl
      · rw [if_pos hl] at b1; cases b1
  | regionalManning index vs =>
    unfold apiStep at hs
    dsimp only at hs
    cases hv : onVector 1 (ownedOfIndex (ownedRegions cm regions) index) (setRegionalManning (ownedRegions cm regions) index vs) s.mat with
    | error => rw [hv] at hs; cases hs
    | ub => rw [hv] at hs; cases hs
    | ok b =>
      rw [hv] at hs
      cases hs
      refine ⟨holds_congr he fun c k _ _ _ => (hsn c k).symm, ?_⟩
      dsimp only
      obtain ⟨b1, b2⟩ := onVector_ok hv
      obtain ⟨bl, bv⟩ := b
      obtain rfl : bl = s.mat.len := b2
      dsimp only at b1
      unfold setRegionalManning at b1
      by_cases e1 : ((ownedRegions cm regions).length : ℤ) ≤ index
      · rw [if_pos e1] at b1; cases b1
      rw [if_neg e1] at b1
      by_cases e2 : index < 0
      · rw [if_pos e2] at b1; cases b1
      rw [if_neg e2] at b1
      have hget : (ownedRegions cm regions)[index.toNat]? = (regions[index.toNat]?).map fun r => (⟨r.id, r.ownedIds cm⟩ : SrcRegion) :=
        List.getElem?_map
      rw [hget] at b1
      have hman : ∀ c, (ApiCall.regionalManning index vs).manning regions cm.own c =
        (regions[index.toNat]?).bind fun r => r.gives cm.own c fun i => vs[i]? := fun _ => rfl
      cases hf : regions[index.toNat]? with
      | none => rw [hf] at b1; cases b1
      | some r =>
        rw [hf] at b1
        have hr := List.mem_of_getElem? hf
        dsimp only [Option.map_some] at b1
        by_cases hl : vs.length = (r.ownedIds cm).length
        · rw [if_neg (not_not.mpr hl)] at b1
          cases b1
          refine holds_congr (holds_region h hr hm 0 fun i => vs.getD i 0) fun c k _ ho hk => ?_
          obtain rfl : k = 0 := by omega
          rw [hmn, hman, hf, Option.bind_some, gives_list hl ho]
          by_cases hc : c ∈ r.cells
          · rw [if_pos ⟨rfl, hc⟩, if_pos hc]
          · rw [if_neg (fun h => hc h.2), if_neg hc]
        · rw [if_pos hl] at b1; cases b1
  | domainManning vs =>
    unfold apiStep at hs
    dsimp only at hs
    cases hv : onVector 1 (List.range N) (setDomainManning N vs) s.mat with
    | error => rw [hv] at hs; cases hs
    | ub => rw [hv] at hs; cases hs
    | ok b =>
      rw [hv] at hs
      cases hs
      refine ⟨holds_congr he fun c k _ _ _ => (hsn c k).symm, ?_⟩
      dsimp only
      obtain ⟨b1, b2⟩ := onVector_ok hv
      obtain ⟨bl, bv⟩ := b
      obtain rfl : bl = s.mat.len := b2
      dsimp only at b1
      unfold setDomainManning at b1
      by_cases hl : vs.length = N
      · rw [if_neg (not_not.mpr hl)] at b1
        cases b1
        refine holds_congr (holds_domain h hm 0 fun i => vs.getD i 0) fun c k hc ho hk => ?_
        obtain rfl : k = 0 := by omega
        rw [hmn, if_pos rfl]
        show _ = (vs[rankOf cm.own c]?).getD _
        have hi : rankOf cm.own c < vs.length := by rw [hl, h.count]; exact ownedCells_lt hc ho
        rw [List.getElem?_eq_getElem hi, List.getD_eq_getElem _ _ hi]
        rfl
      · rw [if_pos hl] at b1; cases b1

/-- evaluations one after the other -/
def evalAll {σ : Type} (ev : σ → SCall → Option (σ × Arr Num)) : σ → List SCall → Option σ
  | m, [] => some m
  | m, a :: l => (ev m a).bind fun r => evalAll ev r.1 l

theorem evalAll_snoc {σ : Type} (ev : σ → SCall → Option (σ × Arr Num)) (a : SCall) : ∀ (l : List SCall) (m : σ),
    evalAll ev m (l ++ [a]) = (evalAll ev m l).bind fun m' => (ev m' a).map fun r => r.1 := by
  intro l
  induction l with
  | nil =>
    intro m
    show (ev m a).bind _ = (ev m a).map _
    cases ev m a <;> rfl
  | cons b l ih =>
    intro m
    show (ev m b).bind (fun r => evalAll ev r.1 (l ++ [a])) = ((ev m b).bind fun r => evalAll ev r.1 l).bind _
    cases ev m b with
    | none => rfl
    | some r => exact ih r.1

/-- Specification: the arrays given to the evaluations have the right sizes. -/
def ApiCall.Sized (nu nf : ℕ) : ApiCall → Prop
  | .evaluate _ u fd => u.len = nu ∧ fd.len = nf
  | _ => True

/-- the vectors after any history, and what the operators were given -/
theorem apiRun_holds {σ : Type} {cm : CellMap} {nc N : ℕ} {regions : List Region} (h : Numbered cm nc N regions) {n : ℕ}
    {ev : σ → SCall → Option (σ × Arr Num)} {m : σ} {nu nf : ℕ} (calls : List ApiCall) (hsz : ∀ a ∈ calls, a.Sized nu nf) {s : ApiState σ}
    (hs : apiRun n N (ownedRegions cm regions) ev calls (apiInit n N m) = .ok s) :
    HoldsGiven cm nc N n s.ext (givenSource regions cm.own calls) ∧ (HoldsGiven cm nc N 1 s.mat fun c _ => givenManning regions cm.own calls c) ∧
      ∃ l : List SCall, (∀ a ∈ l, a.u.len = nu ∧ a.fd.len = nf ∧ a.ext.len = n * N ∧ a.mat.len = 1 * N) ∧ evalAll ev m l = some s.mem := by
  induction calls using List.reverseRecOn generalizing s with
  | nil =>
    cases hs
    refine ⟨⟨rfl, fun o k _ => ?_⟩, ⟨(Nat.one_mul N).symm, fun o k _ => ?_⟩, [], by simp, rfl⟩
    · show (0 : ℝ) = _
      cases (ownedCells cm.own nc)[o]? <;> rfl
    · show (0 : ℝ) = _
      cases (ownedCells cm.own nc)[o]? <;> rfl
  | append_singleton calls a ih =>
    obtain ⟨s1, h1, h2⟩ := apiRun_snoc.mp hs
    obtain ⟨i1, i2, l, i3, i4⟩ := ih (fun b hb => hsz b (List.mem_append_left _ hb)) h1
    obtain ⟨j1, j2⟩ := apiStep_holds h i1 i2 h2
    refine ⟨j1, j2, ?_⟩
    have same : s.mem = s1.mem → ∃ l : List SCall, (∀ a ∈ l, a.u.len = nu ∧ a.fd.len = nf ∧ a.ext.len = n * N ∧ a.mat.len = 1 * N) ∧
        evalAll ev m l = some s.mem := fun he => ⟨l, i3, by rw [he]; exact i4⟩
    unfold apiStep at h2
    cases a with
    | evaluate dt u fd =>
      dsimp only at h2
      cases hv : ev s1.mem ⟨dt, u, s1.ext, s1.mat, fd⟩ with
      | none => rw [hv] at h2; cases h2
      | some r =>
        rw [hv] at h2
        cases h2
        refine ⟨l ++ [⟨dt, u, s1.ext, s1.mat, fd⟩], ?_, ?_⟩
        · intro b hb
          rcases List.mem_append.mp hb with hb | hb
          · exact i3 b hb
          · rw [List.mem_singleton.mp hb]
            obtain ⟨z1, z2⟩ := hsz (.evaluate dt u fd) (List.mem_append_right _ (List.mem_singleton.mpr rfl))
            exact ⟨z1, z2, i1.1, i2.1⟩
        · rw [evalAll_snoc, i4, Option.bind_some, hv]
          rfl
    | _ =>
      dsimp only at h2
      refine same ?_
      split at h2
      · cases h2; rfl
      · cases h2
      · cases h2

theorem HoldsGiven.at {cm : CellMap} {nc N n : ℕ} {regions : List Region} (h : Numbered cm nc N regions) {a : Arr ℝ} {f : ℕ → ℕ → ℝ} (ha : HoldsGiven cm nc N n a f)
    {c k : ℕ} (hc : c < nc) (ho : cm.own c = true) (hk : k < n) : a.val (n * cm.l2o c + k) = f c k := by
  rw [ha.2 _ k hk, ownedCells_get.mpr ⟨hc, ho, (h.number c hc ho).symm⟩]

/-! ### What evaluations use -/

/-- C118 (the vectors): after any sequence of calls and evaluations that succeeds, the vectors that the operators read hold, under the number of each owned cell, what the
last call that concerns the cell gave it. -/
theorem C118_vectors {σ : Type} {cm : CellMap} {nc N : ℕ} {regions : List Region} (h : Numbered cm nc N regions) {n : ℕ}
    {ev : σ → SCall → Option (σ × Arr Num)} {m : σ} {nu nf : ℕ} (calls : List ApiCall) (hsz : ∀ a ∈ calls, a.Sized nu nf) {s : ApiState σ}
    (hs : apiRun n N (ownedRegions cm regions) ev calls (apiInit n N m) = .ok s) :
    s.ext.len = n * N ∧ s.mat.len = N ∧ ∀ c < nc, cm.own c = true →
      (∀ k < n, s.ext.val (n * cm.l2o c + k) = givenSource regions cm.own calls c k) ∧
      s.mat.val (cm.l2o c) = givenManning regions cm.own calls c := by
  obtain ⟨h1, h2, _⟩ := apiRun_holds h calls hsz hs
  refine ⟨h1.1, by rw [h2.1, Nat.one_mul], fun c hc ho => ⟨fun k hk => h1.at h hc ho hk, ?_⟩⟩
  have := h2.at h hc ho (k := 0) (by omega)
  simpa using this

/-- the numbering of a process as `SCells` has it -/
theorem numbered_cells {S : SCells} {n : ℕ} (hS : S.Valid n) {regions : List Region} (hc : ∀ r ∈ regions, ∀ c ∈ r.cells, c < n)
    (hn : ∀ r ∈ regions, r.cells.Nodup) : Numbered ⟨S.owned.val, S.l2o.val⟩ n S.numOwned regions :=
  ⟨hS.count, hS.number, hc, hn⟩

theorem evalAll_C (n : ℕ) : ∀ (l : List SCall) (op : COp), evalAll (sourceEvaluationC n) op l = sourceEvaluationsC n op l := by
  intro l
  induction l with
  | nil => intro op; rfl
  | cons a l ih =>
    intro op
    show (sourceEvaluationC n op a).bind _ = (sourceEvaluationC n op a).bind _
    cases sourceEvaluationC n op a with
    | none => rfl
    | some r => exact ih r.1

theorem evalAll_T (nt n : ℕ) : ∀ (l : List SCall) (op : COp), evalAll (sourceEvaluationT nt n) op l = sourceEvaluationsT nt n op l := by
  intro l
  induction l with
  | nil => intro op; rfl
  | cons a l ih =>
    intro op
    show (sourceEvaluationT nt n op a).bind _ = (sourceEvaluationT nt n op a).bind _
    cases sourceEvaluationT nt n op a with
    | none => rfl
    | some r => exact ih r.1

/-- C118 (CEED): whatever calls and evaluations went before, the next evaluation succeeds and gives each owned cell its right-hand side with the source and the Manning
coefficient last given to that cell. -/
theorem C118_ceed (P : FlowParams) (fm : FrictionMethod) (slope : Bool) {S : SCells} {n : ℕ} (hS : S.Valid n) {regions : List Region}
    (hc : ∀ r ∈ regions, ∀ c ∈ r.cells, c < n) (hn : ∀ r ∈ regions, r.cells.Nodup) {op : COp} (hop : createSourceC P fm slope S = some op)
    (calls : List ApiCall) (hsz : ∀ a ∈ calls, a.Sized (3 * n) (3 * S.numOwned)) {s : ApiState COp}
    (hs : apiRun 3 S.numOwned (ownedRegions ⟨S.owned.val, S.l2o.val⟩ regions) (sourceEvaluationC S.numOwned) calls (apiInit 3 S.numOwned op) = .ok s)
    (dt : ℝ) {u fd : Arr ℝ} (hu : u.len = 3 * n) (hf : fd.len = 3 * S.numOwned) :
    ∃ s' rhs, apiRun 3 S.numOwned (ownedRegions ⟨S.owned.val, S.l2o.val⟩ regions) (sourceEvaluationC S.numOwned) (calls ++ [.evaluate dt u fd])
        (apiInit 3 S.numOwned op) = .ok s' ∧ s'.out = rhs :: s.out ∧ rhs.len = 3 * S.numOwned ∧
      ∀ c < n, S.owned.val c = true → ∀ k < 3, rhs.val (3 * S.l2o.val c + k) =
        (cellRhsCeed P fm slope (S.dzdx.val c) (S.dzdy.val c) dt (givenManning regions S.owned.val calls c)
          ⟨givenSource regions S.owned.val calls c 0, givenSource regions S.owned.val calls c 1, givenSource regions S.owned.val calls c 2⟩
          ⟨fd.val (3 * S.l2o.val c), fd.val (3 * S.l2o.val c + 1), fd.val (3 * S.l2o.val c + 2)⟩ (stateAt u c)).map fun f => f.comp k := by
  have hN := numbered_cells hS hc hn
  obtain ⟨v1, v2, v3⟩ := C118_vectors hN calls hsz hs
  obtain ⟨_, _, l, l1, l2⟩ := apiRun_holds hN calls hsz hs
  rw [evalAll_C] at l2
  have hfit : (⟨dt, u, s.ext, s.mat, fd⟩ : SCall).Fits S n := ⟨hu, v1, by rw [Nat.one_mul]; exact v2, hf⟩
  obtain ⟨op'', rhs, pv, si, e1, -, -, e2, -, -, e3⟩ := C111_cells P fm slope hS l
    (fun a ha => ⟨(l1 a ha).1, (l1 a ha).2.2.1, (l1 a ha).2.2.2, (l1 a ha).2.1⟩) hfit hop l2
  refine ⟨⟨s.ext, s.mat, op'', rhs :: s.out⟩, rhs, apiRun_snoc.mpr ⟨s, hs, ?_⟩, rfl, e2, fun c hc ho k hk => ?_⟩
  · unfold apiStep
    dsimp only
    rw [e1]
  · obtain ⟨w1, w2⟩ := v3 c hc ho
    rw [(e3 c hc ho k hk).1]
    unfold SCells.rhsOf
    dsimp only at w1 w2 ⊢
    have w0 := w1 0 (by omega)
    rw [Nat.add_zero] at w0
    rw [w0, w1 1 (by omega), w1 2 (by omega), w2]
    rfl

/-- C118 (CEED, with tracers): the same for runs with up to five tracers, with a step that is not negative. -/
theorem C118_tracers (P : FlowParams) (fr slope : Bool) (hg : 0 ≤ P.g) (ht : 0 ≤ P.tinyH) {nt : ℕ} (hnt : nt ≤ 5) {S : SCells} {n : ℕ} (hS : S.Valid n)
    {regions : List Region} (hc : ∀ r ∈ regions, ∀ c ∈ r.cells, c < n) (hn : ∀ r ∈ regions, r.cells.Nodup) {op : COp}
    (hop : createSourceT P fr slope nt S = some op) (calls : List ApiCall) (hsz : ∀ a ∈ calls, a.Sized ((3 + nt) * n) ((3 + nt) * S.numOwned)) {s : ApiState COp}
    (hs : apiRun (3 + nt) S.numOwned (ownedRegions ⟨S.owned.val, S.l2o.val⟩ regions) (sourceEvaluationT nt S.numOwned) calls (apiInit (3 + nt) S.numOwned op) = .ok s)
    {dt : ℝ} (hdt : 0 ≤ dt) {u fd : Arr ℝ} (hu : u.len = (3 + nt) * n) (hf : fd.len = (3 + nt) * S.numOwned) :
    ∃ s' rhs, apiRun (3 + nt) S.numOwned (ownedRegions ⟨S.owned.val, S.l2o.val⟩ regions) (sourceEvaluationT nt S.numOwned) (calls ++ [.evaluate dt u fd])
        (apiInit (3 + nt) S.numOwned op) = .ok s' ∧ s'.out = rhs :: s.out ∧ rhs.len = (3 + nt) * S.numOwned ∧
      ∀ c < n, S.owned.val c = true → ∀ k < 3 + nt,
        rhs.val ((3 + nt) * S.l2o.val c + k) =
          some (tRhsOf P fr slope (S.dzdx.val c) (S.dzdy.val c) dt (givenManning regions S.owned.val calls c) (givenSource regions S.owned.val calls c)
            (fun d => fd.val ((3 + nt) * S.l2o.val c + d)) (tStateAt nt u c) k) := by
  have hN := numbered_cells hS hc hn
  obtain ⟨v1, v2, v3⟩ := C118_vectors hN calls hsz hs
  obtain ⟨_, _, l, l1, l2⟩ := apiRun_holds hN calls hsz hs
  rw [evalAll_T] at l2
  have hfit : (⟨dt, u, s.ext, s.mat, fd⟩ : SCall).FitsT nt S n := ⟨hu, v1, by rw [Nat.one_mul]; exact v2, hf⟩
  obtain ⟨op'', rhs, pv, si, e1, -, -, e2, -, -, e3⟩ := C117_cells P fr slope hg ht hnt hS l
    (fun a ha => ⟨(l1 a ha).1, (l1 a ha).2.2.1, (l1 a ha).2.2.2, (l1 a ha).2.1⟩) hfit hdt hop l2
  refine ⟨⟨s.ext, s.mat, op'', rhs :: s.out⟩, rhs, apiRun_snoc.mpr ⟨s, hs, ?_⟩, rfl, e2, fun c hc ho k hk => ?_⟩
  · unfold apiStep
    dsimp only
    rw [e1]
  · obtain ⟨w1, w2⟩ := v3 c hc ho
    rw [(e3 c hc ho k hk).1]
    dsimp only at w1 w2 ⊢
    rw [w2]
    refine congrArg some ?_
    unfold tRhsOf
    dsimp only
    rw [w1 k hk]

/-- Specification: the given sources by owned number. -/
def numberedSource (regions : List Region) (own : ℕ → Bool) (nc : ℕ) (calls : List ApiCall) (o : ℕ) : Flux :=
  match (ownedCells own nc)[o]? with
  | some c => ⟨givenSource regions own calls c 0, givenSource regions own calls c 1, givenSource regions own calls c 2⟩
  | none => ⟨0, 0, 0⟩

/-- Specification: the given Manning coefficients by owned number. -/
def numberedManning (regions : List Region) (own : ℕ → Bool) (nc : ℕ) (calls : List ApiCall) (o : ℕ) : ℝ :=
  match (ownedCells own nc)[o]? with
  | some c => givenManning regions own calls c
  | none => 0

theorem evalAll_petsc {P : FlowParams} {C : PetscCfg} {T : Tables} {V : BedTables} {Bs : List Bnd} {nc n ne : ℕ} (hT : T.Valid nc n ne) (hV : V.Valid nc)
    (hB : ∀ B ∈ Bs, B.Valid ne) : ∀ (l : List SCall) (m m' : PetscMem × PetscVecs),
      (∀ a ∈ l, a.u.len = 3 * nc ∧ a.ext.len = 3 * n ∧ a.mat.len = n) → m.1.Ready C T V Bs nc → m.2.pv.len = 3 * n →
      evalAll (petscEval P C T V Bs nc n) m l = some m' → m'.1.Ready C T V Bs nc ∧ m'.2.pv.len = 3 * n := by
  intro l
  induction l with
  | nil => intro m m' _ h1 h2 h; cases h; exact ⟨h1, h2⟩
  | cons a l ih =>
    intro m m' hl h1 h2 h
    obtain ⟨a1, a2, a3⟩ := hl a List.mem_cons_self
    obtain ⟨M', D', f, e1, e2, e3, _⟩ := C112_results (P := P) hT hV hB a.dt a1 h1 (D := { m.2 with src := a.ext, mat := a.mat }) ⟨a2, a3, h2⟩
    have he : petscEval P C T V Bs nc n m a = some ((M', D'), f) := by unfold petscEval; rw [e1]; rfl
    unfold evalAll at h
    rw [he] at h
    exact ih (M', D') m' (fun b hb => hl b (List.mem_cons_of_mem _ hb)) e2 e3.pv h

/-- C118 (PETSc): whatever calls and evaluations went before, the next evaluation succeeds, and if the edges and cells treated one after the other with the sources and
coefficients last given have a right-hand side, that is the result. -/
theorem C118_petsc {P : FlowParams} {C : PetscCfg} {T : Tables} {V : BedTables} {Bs : List Bnd} {nc n ne : ℕ} (hT : T.Valid nc n ne) (hV : V.Valid nc)
    (hB : ∀ B ∈ Bs, B.Valid ne) {regions : List Region} (hN : Numbered ⟨T.owned.val, T.l2o.val⟩ nc n regions) {M : PetscMem} {D : PetscVecs}
    (hM : createPetsc C T V Bs nc = some M) (hD : D.pv.len = 3 * n) (calls : List ApiCall) {nf : ℕ} (hsz : ∀ a ∈ calls, a.Sized (3 * nc) nf)
    {s : ApiState (PetscMem × PetscVecs)}
    (hs : apiRun 3 n (ownedRegions ⟨T.owned.val, T.l2o.val⟩ regions) (petscEval P C T V Bs nc n) calls (apiInit 3 n (M, D)) = .ok s)
    (dt : ℝ) {u fd : Arr ℝ} (hu : u.len = 3 * nc) :
    ∃ s' f, apiRun 3 n (ownedRegions ⟨T.owned.val, T.l2o.val⟩ regions) (petscEval P C T V Bs nc n) (calls ++ [.evaluate dt u fd]) (apiInit 3 n (M, D)) = .ok s' ∧
      s'.out = f :: s.out ∧ f.len = 3 * n ∧ ∀ g,
        rhs P C.method (decide (C.wb = .hr)) (rhsMeshOf T V Bs nc) dt (numberedSource regions T.owned.val nc calls) (numberedManning regions T.owned.val nc calls)
          (stateAt u) = some g →
        ∀ o, f.val (3 * o) = some (g o).m ∧ f.val (3 * o + 1) = some (g o).x ∧ f.val (3 * o + 2) = some (g o).y := by
  obtain ⟨M0, m1, m2, _⟩ := C112_create C hT hV hB
  obtain rfl : M0 = M := Option.some.inj (m1.symm.trans hM)
  obtain ⟨h1, h2, l, l1, l2⟩ := apiRun_holds hN calls hsz hs
  obtain ⟨r1, r2⟩ := evalAll_petsc hT hV hB l (M0, D) s.mem (fun a ha => ⟨(l1 a ha).1, (l1 a ha).2.2.1, by rw [(l1 a ha).2.2.2, Nat.one_mul]⟩) m2 hD l2
  obtain ⟨M', D', f, e1, e2, e3, e4, e5⟩ := C112_results (P := P) hT hV hB dt hu r1 (D := { s.mem.2 with src := s.ext, mat := s.mat })
    ⟨h1.1, by rw [h2.1, Nat.one_mul], r2⟩
  have he : petscEval P C T V Bs nc n s.mem ⟨dt, u, s.ext, s.mat, fd⟩ = some ((M', D'), f) := by unfold petscEval; rw [e1]; rfl
  refine ⟨⟨s.ext, s.mat, (M', D'), f :: s.out⟩, f, apiRun_snoc.mpr ⟨s, hs, ?_⟩, rfl, e4, fun g hg => e5 g ?_⟩
  · unfold apiStep
    dsimp only
    rw [he]
  · have hsrc : srcAt s.ext = numberedSource regions T.owned.val nc calls := by
      funext o
      unfold srcAt numberedSource
      have a0 := h1.2 o 0 (by omega)
      have a1 := h1.2 o 1 (by omega)
      have a2 := h1.2 o 2 (by omega)
      rw [Nat.add_zero] at a0
      rw [a0, a1, a2]
      dsimp only
      cases (ownedCells T.owned.val nc)[o]? <;> rfl
    have hmat : s.mat.val = numberedManning regions T.owned.val nc calls := by
      funext o
      have a0 := h2.2 o 0 (by omega)
      rw [Nat.add_zero, Nat.one_mul] at a0
      rw [a0]
      rfl
    dsimp only
    rw [hsrc, hmat]
    exact hg

/-! ### Which runs succeed -/

/-- Specification: a call with the right number of values for this process, a component that exists and, for an evaluation, vectors of the right sizes. -/
def ApiCall.WellFormed (regions : List Region) (own : ℕ → Bool) (n N nu nf : ℕ) : ApiCall → Prop
  | .regional rid comp vs => comp < n ∧ ∀ r, (regions.find? fun r => r.id = rid) = some r → vs.length = (r.cells.filter own).length
  | .homogeneous _ comp _ => comp < n
  | .domain comp vs => comp < n ∧ vs.length = N
  | .regionalManning index vs => 0 ≤ index ∧ ∃ r, regions[index.toNat]? = some r ∧ vs.length = (r.cells.filter own).length
  | .domainManning vs => vs.length = N
  | .evaluate _ u fd => u.len = nu ∧ fd.len = nf

theorem owned_bound {cm : CellMap} {nc N : ℕ} {regions : List Region} (h : Numbered cm nc N regions) {r : Region} (hr : r ∈ regions) (n : ℕ) {a : Arr ℝ}
    (ha : a.len = n * N) : ∀ o ∈ r.ownedIds cm, n * o + n ≤ a.len := by
  intro o ho
  obtain ⟨c, m1, m2⟩ := List.mem_map.mp ho
  obtain ⟨m3, m4⟩ := List.mem_filter.mp m1
  have hc := h.cells r hr c m3
  have : o < N := by rw [← m2, h.number c hc m4, h.count]; exact ownedCells_lt hc m4
  rw [ha, ← Nat.mul_succ]
  exact Nat.mul_le_mul_left n this

theorem onVector_of {n : ℕ} {owned : List ℕ} {f : (ℕ → ℝ) → Res (ℕ → ℝ)} {a : Arr ℝ} {d : ℕ → ℝ} (h : f a.val = .ok d) (hb : ∀ o ∈ owned, n * o + n ≤ a.len) :
    onVector n owned f a = .ok ⟨a.len, d⟩ := by
  unfold onVector
  rw [h]
  exact if_pos hb

/-- a well-formed setter succeeds -/
theorem apiStep_ok {σ : Type} {cm : CellMap} {nc N : ℕ} {regions : List Region} (h : Numbered cm nc N regions) {n nu nf : ℕ}
    {ev : σ → SCall → Option (σ × Arr Num)} {s : ApiState σ} (he : s.ext.len = n * N) (hm : s.mat.len = 1 * N) {a : ApiCall}
    (ha : a.WellFormed regions cm.own n N nu nf) (hev : ∀ dt u fd, a = .evaluate dt u fd → (ev s.mem ⟨dt, u, s.ext, s.mat, fd⟩).isSome) :
    ∃ s', apiStep n N (ownedRegions cm regions) ev s a = .ok s' := by
  have hdom : ∀ (n : ℕ) (b : Arr ℝ), b.len = n * N → ∀ o ∈ List.range N, n * o + n ≤ b.len := by
    intro n b hb o ho
    rw [hb, ← Nat.mul_succ]
    exact Nat.mul_le_mul_left n (List.mem_range.mp ho)
  cases a with
  | evaluate dt u fd =>
    obtain ⟨r, hr⟩ := Option.isSome_iff_exists.mp (hev dt u fd rfl)
    unfold apiStep
    dsimp only
    rw [hr]
    exact ⟨_, rfl⟩
  | regional rid comp vs =>
    obtain ⟨w1, w2⟩ := ha
    unfold apiStep
    dsimp only
    suffices hx : ∃ b, onVector n (ownedOfId (ownedRegions cm regions) rid) (setRegional n (ownedRegions cm regions) rid comp vs) s.ext = .ok b by
      obtain ⟨b, hb⟩ := hx
      rw [hb]
      exact ⟨_, rfl⟩
    cases hf : regions.find? fun r => r.id = rid with
    | none =>
      refine ⟨_, onVector_of (d := s.ext.val) ?_ ?_⟩
      · unfold setRegional; rw [find_ownedRegions, hf]; rfl
      · unfold ownedOfId; rw [find_ownedRegions, hf]; exact fun o ho => by cases ho
    | some r =>
      have hr := List.mem_of_find?_eq_some hf
      have hl : vs.length = (r.ownedIds cm).length := by rw [w2 r hf]; unfold Region.ownedIds; rw [List.length_map]
      have hb : ∀ o ∈ ownedOfId (ownedRegions cm regions) rid, n * o + n ≤ s.ext.len := by
        unfold ownedOfId; rw [find_ownedRegions, hf]; exact owned_bound h hr n he
      by_cases h0 : r.ownedIds cm = []
      · refine ⟨_, onVector_of (d := s.ext.val) ?_ hb⟩
        unfold setRegional
        rw [find_ownedRegions, hf]
        dsimp only [Option.map_some]
        rw [if_neg (not_not.mpr hl), if_pos h0]
      · refine ⟨_, onVector_of (d := restoreRegionData n (r.ownedIds cm)
          (fun c i => if c = comp then vs.getD i 0 else getRegionData n (r.ownedIds cm) s.ext.val c i) s.ext.val) ?_ hb⟩
        unfold setRegional
        rw [find_ownedRegions, hf]
        dsimp only [Option.map_some]
        rw [if_neg (not_not.mpr hl), if_neg h0, if_neg (Nat.not_le.mpr w1)]
  | homogeneous rid comp v =>
    have w1 : comp < n := ha
    unfold apiStep
    dsimp only
    suffices hx : ∃ b, onVector n (ownedOfId (ownedRegions cm regions) rid) (setHomogeneous n (ownedRegions cm regions) rid comp v) s.ext = .ok b by
      obtain ⟨b, hb⟩ := hx
      rw [hb]
      exact ⟨_, rfl⟩
    cases hf : regions.find? fun r => r.id = rid with
    | none =>
      refine ⟨_, onVector_of (d := s.ext.val) ?_ ?_⟩
      · unfold setHomogeneous; rw [find_ownedRegions, hf]; rfl
      · unfold ownedOfId; rw [find_ownedRegions, hf]; exact fun o ho => by cases ho
    | some r =>
      have hr := List.mem_of_find?_eq_some hf
      have hb : ∀ o ∈ ownedOfId (ownedRegions cm regions) rid, n * o + n ≤ s.ext.len := by
        unfold ownedOfId; rw [find_ownedRegions, hf]; exact owned_bound h hr n he
      by_cases h0 : r.ownedIds cm = []
      · refine ⟨_, onVector_of (d := s.ext.val) ?_ hb⟩
        unfold setHomogeneous
        rw [find_ownedRegions, hf]
        dsimp only [Option.map_some]
        rw [if_pos h0]
      · refine ⟨_, onVector_of (d := restoreRegionData n (r.ownedIds cm)
          (fun c i => if c = comp then v else getRegionData n (r.ownedIds cm) s.ext.val c i) s.ext.val) ?_ hb⟩
        unfold setHomogeneous
        rw [find_ownedRegions, hf]
        dsimp only [Option.map_some]
        rw [if_neg h0, if_neg (Nat.not_le.mpr w1)]
  | domain comp vs =>
    obtain ⟨w1, w2⟩ := ha
    unfold apiStep
    dsimp only
    rw [onVector_of (a := s.ext) (d := restoreRegionData n (List.range N)
      (fun c i => if c = comp then vs.getD i 0 else getRegionData n (List.range N) s.ext.val c i) s.ext.val)
      (by unfold setDomain; rw [if_neg (not_not.mpr w2), if_neg (Nat.not_le.mpr w1)]) (hdom n s.ext he)]
    exact ⟨_, rfl⟩
  | regionalManning index vs =>
    obtain ⟨w1, r, w2, w3⟩ := ha
    have hr := List.mem_of_getElem? w2
    have hl : vs.length = (r.ownedIds cm).length := by rw [w3]; unfold Region.ownedIds; rw [List.length_map]
    have hget : (ownedRegions cm regions)[index.toNat]? = some ⟨r.id, r.ownedIds cm⟩ := by
      unfold ownedRegions; rw [List.getElem?_map, w2]; rfl
    have hlt : index.toNat < (ownedRegions cm regions).length := (List.getElem?_eq_some_iff.mp hget).1
    unfold apiStep
    dsimp only
    rw [onVector_of (a := s.mat) (d := restoreRegionData 1 (r.ownedIds cm)
      (fun c i => if c = 0 then vs.getD i 0 else getRegionData 1 (r.ownedIds cm) s.mat.val c i) s.mat.val)
      (by
        unfold setRegionalManning
        rw [if_neg (by omega), if_neg (by omega), hget]
        dsimp only
        rw [if_neg (not_not.mpr hl)])
      (by unfold ownedOfIndex; rw [hget]; exact owned_bound h hr 1 hm)]
    exact ⟨_, rfl⟩
  | domainManning vs =>
    have w1 : vs.length = N := ha
    unfold apiStep
    dsimp only
    rw [onVector_of (a := s.mat) (d := restoreRegionData 1 (List.range N)
      (fun c i => if c = 0 then vs.getD i 0 else getRegionData 1 (List.range N) s.mat.val c i) s.mat.val)
      (by unfold setDomainManning; rw [if_neg (not_not.mpr w1)]) (hdom 1 s.mat hm)]
    exact ⟨_, rfl⟩

theorem WellFormed.sized {regions : List Region} {own : ℕ → Bool} {n N nu nf : ℕ} {a : ApiCall} (h : a.WellFormed regions own n N nu nf) : a.Sized nu nf := by
  cases a <;> first | exact h | exact trivial

/-- C118 (definedness): a sequence of well-formed calls and evaluations succeeds, without an access outside a vector; IDs of regions that this process does not know are
ignored. -/
theorem C118_defined (P : FlowParams) (fm : FrictionMethod) (slope : Bool) {S : SCells} {n : ℕ} (hS : S.Valid n) {regions : List Region}
    (hc : ∀ r ∈ regions, ∀ c ∈ r.cells, c < n) (hn : ∀ r ∈ regions, r.cells.Nodup) (calls : List ApiCall)
    (hw : ∀ a ∈ calls, a.WellFormed regions S.owned.val 3 S.numOwned (3 * n) (3 * S.numOwned)) :
    ∃ op s, createSourceC P fm slope S = some op ∧
      apiRun 3 S.numOwned (ownedRegions ⟨S.owned.val, S.l2o.val⟩ regions) (sourceEvaluationC S.numOwned) calls (apiInit 3 S.numOwned op) = .ok s := by
  obtain ⟨op, _, hop, _⟩ := C111_defined P fm slope hS [] (by simp)
  have hN := numbered_cells hS hc hn
  refine ⟨op, ?_⟩
  suffices hx : ∃ s, apiRun 3 S.numOwned (ownedRegions ⟨S.owned.val, S.l2o.val⟩ regions) (sourceEvaluationC S.numOwned) calls (apiInit 3 S.numOwned op) = .ok s by
    obtain ⟨s, hs⟩ := hx
    exact ⟨s, hop, hs⟩
  induction calls using List.reverseRecOn with
  | nil => exact ⟨_, rfl⟩
  | append_singleton calls a ih =>
    have hw' : ∀ b ∈ calls, b.WellFormed regions S.owned.val 3 S.numOwned (3 * n) (3 * S.numOwned) := fun b hb => hw b (List.mem_append_left _ hb)
    have hwa := hw a (List.mem_append_right _ (List.mem_singleton.mpr rfl))
    obtain ⟨s, hs⟩ := ih hw'
    obtain ⟨h1, h2, _⟩ := apiRun_holds hN calls (fun b hb => WellFormed.sized (hw' b hb)) hs
    obtain ⟨s', hs'⟩ := apiStep_ok (ev := sourceEvaluationC S.numOwned) hN h1.1 h2.1 hwa (by
      rintro dt u fd rfl
      obtain ⟨s', rhs, e1, _⟩ := C118_ceed P fm slope hS hc hn hop calls (fun b hb => WellFormed.sized (hw' b hb)) hs dt (u := u) (fd := fd) hwa.1 hwa.2
      obtain ⟨s1, f1, f2⟩ := apiRun_snoc.mp e1
      obtain rfl : s = s1 := by rw [hs] at f1; cases f1; rfl
      unfold apiStep at f2
      dsimp only at f2
      cases hv : sourceEvaluationC S.numOwned s.mem ⟨dt, u, s.ext, s.mat, fd⟩ with
      | none => rw [hv] at f2; cases f2
      | some r => rfl)
    exact ⟨s', apiRun_snoc.mpr ⟨s, hs, hs'⟩⟩

/-- C118 (errors): a call with a wrong number of values, or for a region index that does not exist, ends the run with an error, whatever went before, in either backend; an
evaluation never does. -/
theorem C118_errors {σ : Type} (cm : CellMap) (regions : List Region) (n N : ℕ) (ev : σ → SCall → Option (σ × Arr Num)) (s : ApiState σ) :
    (∀ rid comp vs r, (regions.find? fun r => r.id = rid) = some r → vs.length ≠ (r.cells.filter cm.own).length →
      apiStep n N (ownedRegions cm regions) ev s (.regional rid comp vs) = .error) ∧
    (∀ comp vs, vs.length ≠ N → apiStep n N (ownedRegions cm regions) ev s (.domain comp vs) = .error) ∧
    (∀ vs, vs.length ≠ N → apiStep n N (ownedRegions cm regions) ev s (.domainManning vs) = .error) ∧
    (∀ index vs, (index < 0 ∨ (regions.length : ℤ) ≤ index ∨ ∃ r, regions[index.toNat]? = some r ∧ vs.length ≠ (r.cells.filter cm.own).length) →
      apiStep n N (ownedRegions cm regions) ev s (.regionalManning index vs) = .error) ∧
    ∀ dt u fd, apiStep n N (ownedRegions cm regions) ev s (.evaluate dt u fd) ≠ .error := by
  have hx : ∀ (m : ℕ) (ow : List ℕ) (f : (ℕ → ℝ) → Res (ℕ → ℝ)) (a : Arr ℝ), f a.val = .error → onVector m ow f a = .error := by
    intro m ow f a hf
    unfold onVector
    rw [hf]
  refine ⟨?_, ?_, ?_, ?_, fun dt u fd h => by unfold apiStep at h; dsimp only at h; split at h <;> cases h⟩
  · intro rid comp vs r hf hl
    unfold apiStep
    dsimp only
    rw [hx]
    unfold setRegional
    rw [find_ownedRegions, hf]
    dsimp only [Option.map_some]
    rw [if_pos]
    unfold Region.ownedIds
    rw [List.length_map]
    exact hl
  · intro comp vs hl
    unfold apiStep
    dsimp only
    rw [hx]
    unfold setDomain
    rw [if_pos hl]
  · intro vs hl
    unfold apiStep
    dsimp only
    rw [hx]
    unfold setDomainManning
    rw [if_pos hl]
  · intro index vs h
    unfold apiStep
    dsimp only
    rw [hx]
    refine C26_manning_errors _ _ _ _ ?_
    rcases h with h | h | ⟨r, h1, h2⟩
    · exact Or.inl h
    · refine Or.inr (Or.inl ?_)
      unfold ownedRegions
      rw [List.length_map]
      exact h
    · refine Or.inr (Or.inr ⟨⟨r.id, r.ownedIds cm⟩, ?_, ?_⟩)
      · unfold ownedRegions
        rw [List.getElem?_map, h1]
        rfl
      · unfold Region.ownedIds
        dsimp only
        rw [List.length_map]
        exact h2

/-! ### Examples -/

/-- two regions of the three cells of `exSC` (the middle one belongs to another process); cell 2 is in both -/
def exApiRegions : List Region := [⟨['a'], 5, [0, 1, 2]⟩, ⟨['b'], 9, [2]⟩]

theorem exApiRegions_cells : ∀ r ∈ exApiRegions, ∀ c ∈ r.cells, c < 3 := by decide +kernel

theorem exApiRegions_nodup : ∀ r ∈ exApiRegions, r.cells.Nodup := by decide +kernel

/-- rain everywhere, an evaluation, coefficients for the first region, more rain on the second, wind stress on the first, a call for an unknown region -/
noncomputable def exApi (nt : ℕ) : List ApiCall :=
  [.domain 0 [1, 2], .evaluate 1 ⟨(3 + nt) * 3, fun _ => 1⟩ ⟨(3 + nt) * 2, fun _ => 0⟩, .regionalManning 0 [0.03, 0.05], .regional 9 0 [7],
    .homogeneous 5 1 0.5, .regional 4 0 [1, 2, 3, 4]]

theorem exApi_given (nt : ℕ) : givenSource exApiRegions exSC.owned.val (exApi nt) 0 0 = 1 ∧ givenSource exApiRegions exSC.owned.val (exApi nt) 2 0 = 7 ∧
    givenSource exApiRegions exSC.owned.val (exApi nt) 2 1 = 0.5 ∧ givenSource exApiRegions exSC.owned.val (exApi nt) 2 2 = 0 ∧
    givenManning exApiRegions exSC.owned.val (exApi nt) 2 = 0.05 := by
  have h0 : rankOf exSC.owned.val 0 = 0 := by decide +kernel
  have h2 : rankOf exSC.owned.val 2 = 1 := by decide +kernel
  have hi : ([0, 1, 2].filter exSC.owned.val).idxOf 2 = 1 := by decide +kernel
  have hj : ([2].filter exSC.owned.val).idxOf 2 = 0 := by decide +kernel
  refine ⟨?_, ?_, ?_, ?_, ?_⟩ <;>
    norm_num [givenSource, givenManning, lastGiven, exApi, exApiRegions, ApiCall.source, ApiCall.manning, Region.gives, List.findSome?, List.find?, h0, h2, hi, hj]

theorem exApi_formed : ∀ a ∈ exApi 0, a.WellFormed exApiRegions exSC.owned.val 3 exSC.numOwned (3 * 3) (3 * exSC.numOwned) := by
  rw [exSC_owned]
  intro a ha
  unfold exApi at ha
  simp only [List.mem_cons, List.not_mem_nil, or_false] at ha
  rcases ha with rfl | rfl | rfl | rfl | rfl | rfl
  · exact ⟨by omega, rfl⟩
  · exact ⟨rfl, rfl⟩
  · exact ⟨by omega, ⟨['a'], 5, [0, 1, 2]⟩, rfl, rfl⟩
  · refine ⟨by omega, fun r hr => ?_⟩
    have : r = ⟨['b'], 9, [2]⟩ := (Option.some.inj hr).symm
    rw [this]
    rfl
  · show (1 : ℕ) < 3; omega
  · refine ⟨by omega, fun r hr => ?_⟩
    have : (exApiRegions.find? fun r => r.id = 4) = none := by decide +kernel
    rw [this] at hr
    cases hr

/-- the run of the example succeeds -/
example (P : FlowParams) : ∃ op s, createSourceC P .semiImplicit true exSC = some op ∧
    apiRun 3 exSC.numOwned (ownedRegions ⟨exSC.owned.val, exSC.l2o.val⟩ exApiRegions) (sourceEvaluationC exSC.numOwned) (exApi 0) (apiInit 3 exSC.numOwned op) = .ok s :=
  C118_defined P .semiImplicit true exSC_valid exApiRegions_cells exApiRegions_nodup (exApi 0) exApi_formed

/-- after it, the vectors hold rain 7 and coefficient 0.05 for cell 2 (owned number 1), and rain 1 for cell 0 -/
example (P : FlowParams) : ∃ op s, createSourceC P .semiImplicit true exSC = some op ∧
    apiRun 3 exSC.numOwned (ownedRegions ⟨exSC.owned.val, exSC.l2o.val⟩ exApiRegions) (sourceEvaluationC exSC.numOwned) (exApi 0) (apiInit 3 exSC.numOwned op) = .ok s ∧
    s.ext.val 3 = 7 ∧ s.mat.val 1 = 0.05 ∧ s.ext.val 0 = 1 := by
  obtain ⟨op, s, h1, h2⟩ := C118_defined P .semiImplicit true exSC_valid exApiRegions_cells exApiRegions_nodup (exApi 0) exApi_formed
  obtain ⟨-, -, h3⟩ := C118_vectors (numbered_cells exSC_valid exApiRegions_cells exApiRegions_nodup) (exApi 0) (fun a ha => WellFormed.sized (exApi_formed a ha)) h2
  obtain ⟨g1, g2, g3, g4, g5⟩ := exApi_given 0
  have l2 : exSC.l2o.val 2 = 1 := by decide +kernel
  have l0 : exSC.l2o.val 0 = 0 := by decide +kernel
  obtain ⟨a1, a2⟩ := h3 2 (by omega) (by decide +kernel)
  obtain ⟨b1, -⟩ := h3 0 (by omega) (by decide +kernel)
  have a3 := a1 0 (by omega)
  have b3 := b1 0 (by omega)
  dsimp only at a2 a3 b3
  rw [l2] at a2 a3
  rw [l0] at b3
  exact ⟨op, s, h1, h2, a3.trans g2, a2.trans g5, b3.trans g1⟩

/-- the next evaluation of still water of depth 1: cell 2 gains 7 -/
example : ∃ op s' rhs, createSourceC exCP .semiImplicit true exSC = some op ∧
    apiRun 3 exSC.numOwned (ownedRegions ⟨exSC.owned.val, exSC.l2o.val⟩ exApiRegions) (sourceEvaluationC exSC.numOwned)
      (exApi 0 ++ [.evaluate 1 (exSCall 0).u (exSCall 0).fd]) (apiInit 3 exSC.numOwned op) = .ok s' ∧
    s'.out.head? = some rhs ∧ rhs.val 3 = (cellRhsCeed exCP .semiImplicit true (exSC.dzdx.val 2) (exSC.dzdy.val 2) 1 0.05 ⟨7, 0.5, 0⟩ ⟨0, 0, 0⟩
      (stateAt (exSCall 0).u 2)).map fun f => f.comp 0 := by
  obtain ⟨op, s, h1, h2⟩ := C118_defined exCP .semiImplicit true exSC_valid exApiRegions_cells exApiRegions_nodup (exApi 0) exApi_formed
  obtain ⟨s', rhs, h3, h4, -, h5⟩ := C118_ceed exCP .semiImplicit true exSC_valid exApiRegions_cells exApiRegions_nodup h1 (exApi 0)
    (fun a ha => WellFormed.sized (exApi_formed a ha)) h2 1 (u := (exSCall 0).u) (fd := (exSCall 0).fd) rfl (by rw [exSC_owned]; rfl)
  refine ⟨op, s', rhs, h1, h3, by rw [h4]; rfl, ?_⟩
  have h6 := h5 2 (by omega) (by decide +kernel) 0 (by omega)
  obtain ⟨g1, g2, g3, g4, g5⟩ := exApi_given 0
  have l2 : exSC.l2o.val 2 = 1 := by decide +kernel
  rw [g2, g3, g4, g5, l2] at h6
  exact h6

/-- with two sediment classes: the run before any call, then an evaluation in which nothing was given -/
example : ∃ op s' rhs, createSourceT exCP true true 2 exSC = some op ∧
    apiRun 5 exSC.numOwned (ownedRegions ⟨exSC.owned.val, exSC.l2o.val⟩ exApiRegions) (sourceEvaluationT 2 exSC.numOwned)
      ([.homogeneous 9 3 0.25] ++ [.evaluate 1 (exTSCall 2 0).u (exTSCall 2 0).fd]) (apiInit 5 exSC.numOwned op) = .ok s' ∧
    s'.out.head? = some rhs ∧ rhs.val 8 = some (tRhsOf exCP true true (exSC.dzdx.val 2) (exSC.dzdy.val 2) 1 0 (fun d => if d = 3 then 0.25 else 0)
      (fun _ => 0) (tStateAt 2 (exTSCall 2 0).u 2) 3) := by
  obtain ⟨op, -, hop, -⟩ := C117_defined_partial exCP true true (nt := 2) (by omega) exSC_valid [] (fun a ha => absurd ha List.not_mem_nil)
  have hN := numbered_cells exSC_valid exApiRegions_cells exApiRegions_nodup
  obtain ⟨s, hs⟩ := apiStep_ok (ev := sourceEvaluationT 2 exSC.numOwned) (n := 5) (nu := 0) (nf := 0) (s := apiInit 5 exSC.numOwned op) hN rfl
    (Nat.one_mul _).symm (a := .homogeneous 9 3 0.25) (by show 3 < 5; omega) (fun _ _ _ h => by cases h)
  have hrun : apiRun 5 exSC.numOwned (ownedRegions ⟨exSC.owned.val, exSC.l2o.val⟩ exApiRegions) (sourceEvaluationT 2 exSC.numOwned) [.homogeneous 9 3 0.25]
      (apiInit 5 exSC.numOwned op) = .ok s := apiRun_snoc (l := []).mpr ⟨_, rfl, hs⟩
  obtain ⟨s', rhs, h3, h4, -, h5⟩ := C118_tracers exCP true true (by norm_num [exCP]) (by norm_num [exCP]) (nt := 2) (by omega) exSC_valid exApiRegions_cells
    exApiRegions_nodup hop [.homogeneous 9 3 0.25] (fun a ha => by rw [List.mem_singleton.mp ha]; exact trivial) hrun (dt := 1) (by norm_num)
    (u := (exTSCall 2 0).u) (fd := (exTSCall 2 0).fd) rfl (by rw [exSC_owned]; rfl)
  refine ⟨op, s', rhs, hop, h3, by rw [h4]; rfl, ?_⟩
  have h6 := h5 2 (by omega) (by decide +kernel) 3 (by omega)
  have l2 : exSC.l2o.val 2 = 1 := by decide +kernel
  have gm : givenManning exApiRegions exSC.owned.val [.homogeneous 9 3 0.25] 2 = 0 := rfl
  have gs : givenSource exApiRegions exSC.owned.val [.homogeneous 9 3 0.25] 2 = fun d => if d = 3 then 0.25 else 0 := by
    funext d
    by_cases h : 3 = d
    · subst h
      rfl
    · have h' : ¬ d = 3 := fun e => h e.symm
      simp [givenSource, lastGiven, ApiCall.source, h, h']
  rw [l2, gm, gs] at h6
  exact h6

/-- the PETSc backend: the two squares of `exSqT` are regions 0 and 1 -/
def exSqRegions : List Region := [⟨['a'], 0, [0]⟩, ⟨['b'], 1, [1]⟩]

theorem exSqRegions_numbered : Numbered ⟨exSqT.owned.val, exSqT.l2o.val⟩ 2 2 exSqRegions where
  count := by decide +kernel
  number := by decide +kernel
  cells := by decide +kernel
  nodup := by decide +kernel

/-- coefficients are set, then an evaluation: it succeeds -/
example : ∃ M s' f, createPetsc ⟨.hr, .xq2018⟩ exSqT exSqV [exSqB] 2 = some M ∧
    apiRun 3 2 (ownedRegions ⟨exSqT.owned.val, exSqT.l2o.val⟩ exSqRegions) (petscEval exParams ⟨.hr, .xq2018⟩ exSqT exSqV [exSqB] 2 2)
      ([.domainManning [0.02, 0.04]] ++ [.evaluate 0.5 exSqU ⟨0, fun _ => 0⟩]) (apiInit 3 2 (M, exSqD)) = .ok s' ∧ s'.out = [f] ∧
    numberedManning exSqRegions exSqT.owned.val 2 [.domainManning [0.02, 0.04]] 1 = 0.04 := by
  obtain ⟨M, h1, h2, _⟩ := C112_create ⟨.hr, .xq2018⟩ exSqT_valid exSqV_valid exSqB_valid
  obtain ⟨s, hs⟩ := apiStep_ok (ev := petscEval exParams ⟨.hr, .xq2018⟩ exSqT exSqV [exSqB] 2 2) (n := 3) (nu := 0) (nf := 0) (s := apiInit 3 2 (M, exSqD))
    exSqRegions_numbered rfl rfl (a := .domainManning [0.02, 0.04]) (by show List.length _ = 2; rfl) (fun _ _ _ h => by cases h)
  have hrun : apiRun 3 2 (ownedRegions ⟨exSqT.owned.val, exSqT.l2o.val⟩ exSqRegions) (petscEval exParams ⟨.hr, .xq2018⟩ exSqT exSqV [exSqB] 2 2)
      [.domainManning [0.02, 0.04]] (apiInit 3 2 (M, exSqD)) = .ok s := apiRun_snoc (l := []).mpr ⟨_, rfl, hs⟩
  obtain ⟨s', f, h3, h4, -⟩ := C118_petsc (P := exParams) exSqT_valid exSqV_valid exSqB_valid exSqRegions_numbered h1 (D := exSqD) rfl [.domainManning [0.02, 0.04]]
    (nf := 0) (fun a ha => by rw [List.mem_singleton.mp ha]; exact trivial) hrun 0.5 (u := exSqU) (fd := ⟨0, fun _ => 0⟩) rfl
  have hout : s.out = [] := by
    unfold apiStep at hs
    dsimp only at hs
    split at hs
    · cases hs; rfl
    · cases hs
    · cases hs
  refine ⟨M, s', f, h1, h3, by rw [h4, hout], ?_⟩
  have ho : (ownedCells exSqT.owned.val 2)[1]? = some 1 := by decide +kernel
  have hr : rankOf exSqT.owned.val 1 = 1 := by decide +kernel
  unfold numberedManning
  rw [ho]
  simp [givenManning, lastGiven, ApiCall.manning, hr]

/-- three values for two owned cells -/
example (P : FlowParams) (fm : FrictionMethod) (op : COp) (_ : createSourceC P fm true exSC = some op) :
    apiStep 3 2 (ownedRegions ⟨exSC.owned.val, exSC.l2o.val⟩ exApiRegions) (sourceEvaluationC 2) (apiInit 3 2 op) (.regional 5 0 [1, 2, 3]) = .error :=
  (C118_errors ⟨exSC.owned.val, exSC.l2o.val⟩ exApiRegions 3 2 (sourceEvaluationC 2) (apiInit 3 2 op)).1 5 0 [1, 2, 3] ⟨['a'], 5, [0, 1, 2]⟩ rfl (by decide +kernel)

end RDy
