import Verif.Model.BcFile
import Verif.Props.Forcing
import Mathlib.Tactic

/-!
C128: a file of boundary values on several processes. Specification: the positions of Dirichlet boundaries among those of a process.
-/

namespace RDy

/-! ### Specification -/

/-- The process has exactly one Dirichlet boundary, at position `i`. -/
def OnlyAt (p : List LocalBnd) (i : ℕ) : Prop := (∃ b, p[i]? = some b ∧ b.dirichlet = true) ∧ ∀ j b, p[j]? = some b → b.dirichlet = true → j = i

/-- The process has no Dirichlet boundary. -/
def NoDirichlet (p : List LocalBnd) : Prop := ∀ b ∈ p, b.dirichlet = false

/-- The process has at most one Dirichlet boundary. -/
def AtMostOne (p : List LocalBnd) : Prop := NoDirichlet p ∨ ∃ i, OnlyAt p i

theorem OnlyAt.unique {p : List LocalBnd} {i j : ℕ} (hi : OnlyAt p i) (hj : OnlyAt p j) : i = j := by
  obtain ⟨b, h1, h2⟩ := hi.1
  exact hj.2 i b h1 h2

/-! ### One process -/

theorem dirichlet_cases (p : List LocalBnd) : (dirBcIndex p = -1 ∧ bcMultiple p = false ∧ NoDirichlet p) ∨
    ∃ i : ℕ, dirBcIndex p = i ∧ (∃ b, p[i]? = some b ∧ b.dirichlet = true) ∧ (bcMultiple p = false ↔ OnlyAt p i) := by
  rcases C72_single (p.map LocalBnd.dirichlet) with ⟨h, hn⟩ | ⟨i, h1, h2, h3⟩
  · left
    refine ⟨by unfold dirBcIndex; rw [h], by unfold bcMultiple; rw [h], fun b hb => ?_⟩
    by_contra hd
    exact hn (List.mem_map.mpr ⟨b, hb, by simpa using hd⟩)
  · right
    rw [List.getElem?_map, Option.map_eq_some_iff] at h2
    refine ⟨i, h1, h2, ?_⟩
    show (findDirichlet (p.map LocalBnd.dirichlet)).2 = false ↔ _
    constructor
    · intro hf
      refine ⟨h2, fun j b hj hb => ?_⟩
      by_contra hne
      have := h3.mpr ⟨j, hne, by rw [List.getElem?_map, hj, Option.map_some, hb]⟩
      rw [hf] at this
      cases this
    · intro ho
      by_contra hf
      have hf : (findDirichlet (p.map LocalBnd.dirichlet)).2 = true := by simpa using hf
      obtain ⟨j, hne, hj⟩ := h3.mp hf
      rw [List.getElem?_map, Option.map_eq_some_iff] at hj
      obtain ⟨b, hb1, hb2⟩ := hj
      exact hne (ho.2 j b hb1 hb2)

theorem index_of_onlyAt {p : List LocalBnd} {i : ℕ} (h : OnlyAt p i) : dirBcIndex p = i ∧ bcMultiple p = false := by
  obtain ⟨b, h1, h2⟩ := h.1
  rcases dirichlet_cases p with ⟨-, -, hn⟩ | ⟨k, hk, ⟨c, hc1, hc2⟩, hm⟩
  · exact absurd (hn b (List.mem_of_getElem? h1)) (by rw [h2]; decide)
  · have : k = i := h.2 k c hc1 hc2
    subst this
    exact ⟨hk, hm.mpr h⟩

theorem index_of_none {p : List LocalBnd} (h : NoDirichlet p) : dirBcIndex p = -1 ∧ bcMultiple p = false := by
  rcases dirichlet_cases p with ⟨h1, h2, -⟩ | ⟨k, -, ⟨c, hc1, hc2⟩, -⟩
  · exact ⟨h1, h2⟩
  · exact absurd (h c (List.mem_of_getElem? hc1)) (by rw [hc2]; decide)

theorem atMostOne_iff (p : List LocalBnd) : AtMostOne p ↔ bcMultiple p = false := by
  constructor
  · rintro (h | ⟨i, h⟩)
    · exact (index_of_none h).2
    · exact (index_of_onlyAt h).2
  · intro h
    rcases dirichlet_cases p with ⟨-, -, hn⟩ | ⟨k, -, -, hm⟩
    · exact Or.inl hn
    · exact Or.inr ⟨k, hm.mp h⟩

theorem edges_of_onlyAt {p : List LocalBnd} {i : ℕ} {b : LocalBnd} (h : OnlyAt p i) (hb : p[i]? = some b) : bcEdges p = b.edges := by
  unfold bcEdges
  rw [(index_of_onlyAt h).1, if_neg (by omega), Int.toNat_natCast, hb]
  rfl

theorem edges_of_none {p : List LocalBnd} (h : NoDirichlet p) : bcEdges p = 0 := by
  unfold bcEdges
  rw [if_pos (index_of_none h).1]

/-! ### The common index -/

theorem foldl_max_int (l : List ℤ) (a : ℤ) : a ≤ l.foldl max a ∧ (∀ x ∈ l, x ≤ l.foldl max a) ∧ (l.foldl max a = a ∨ l.foldl max a ∈ l) := by
  induction l generalizing a with
  | nil => simp
  | cons x l ih =>
    obtain ⟨h1, h2, h3⟩ := ih (max a x)
    rw [List.foldl_cons]
    refine ⟨le_trans (le_max_left _ _) h1, ?_, ?_⟩
    · intro y hy
      rcases List.mem_cons.mp hy with rfl | hy
      · exact le_trans (le_max_right _ _) h1
      · exact h2 y hy
    · rcases h3 with h3 | h3
      · rcases max_choice a x with hm | hm
        · left; rw [h3, hm]
        · right; rw [h3, hm]; exact List.mem_cons_self
      · exact Or.inr (List.mem_cons_of_mem _ h3)

theorem bcOpen_ok {ps : List (List LocalBnd)} {g : ℤ} (h : bcOpen ps = .ok g) : (∀ p ∈ ps, AtMostOne p) ∧ g = bcGlobal ps ∧ -1 < g := by
  unfold bcOpen at h
  by_cases hm : ps.any bcMultiple = true
  · rw [if_pos hm] at h; cases h
  · rw [if_neg hm] at h
    by_cases hg : bcGlobal ps > -1
    · rw [if_pos hg] at h
      cases h
      refine ⟨fun p hp => ?_, rfl, hg⟩
      rw [atMostOne_iff]
      by_contra hc
      exact hm (List.any_eq_true.mpr ⟨p, hp, by simpa using hc⟩)
    · rw [if_neg hg] at h; cases h

/-! ### C128 -/

/-- The file is accepted exactly if no process has two Dirichlet boundaries and some process has one. -/
theorem C128_accepted_iff (ps : List (List LocalBnd)) : (∃ g, bcOpen ps = .ok g) ↔ (∀ p ∈ ps, AtMostOne p) ∧ ∃ p ∈ ps, ∃ i, OnlyAt p i := by
  constructor
  · rintro ⟨g, h⟩
    obtain ⟨h1, rfl, h3⟩ := bcOpen_ok h
    refine ⟨h1, ?_⟩
    rcases (foldl_max_int (ps.map dirBcIndex) (-1)).2.2 with he | he
    · unfold bcGlobal at h3; omega
    · obtain ⟨p, hp, he⟩ := List.mem_map.mp he
      refine ⟨p, hp, ?_⟩
      rcases h1 p hp with hn | hi
      · rw [(index_of_none hn).1] at he
        unfold bcGlobal at h3
        omega
      · exact hi
  · rintro ⟨h1, p, hp, i, hi⟩
    unfold bcOpen
    have hm : ¬ ps.any bcMultiple = true := by
      intro hm
      obtain ⟨q, hq, hqm⟩ := List.any_eq_true.mp hm
      rw [(atMostOne_iff q).mp (h1 q hq)] at hqm
      cases hqm
    have hg : bcGlobal ps > -1 := by
      have := (foldl_max_int (ps.map dirBcIndex) (-1)).2.1 (dirBcIndex p) (List.mem_map_of_mem hp)
      rw [(index_of_onlyAt hi).1] at this
      unfold bcGlobal
      omega
    rw [if_neg hm, if_pos hg]
    exact ⟨_, rfl⟩

/-- Values never go to another boundary: what a process sets is its own Dirichlet boundary, on all of its edges. -/
theorem C128_right_boundary {ps : List (List LocalBnd)} {g : ℤ} {p : List LocalBnd} {i : ℕ} (h : bcOpen ps = .ok g) (hp : p ∈ ps) (ha : bcApply g p = .ok (some i)) :
    OnlyAt p i ∧ ∃ b, p[i]? = some b ∧ b.edges = bcEdges p ∧ 0 < b.edges := by
  obtain ⟨h1, -, -⟩ := bcOpen_ok h
  unfold bcApply at ha
  by_cases h0 : bcEdges p * 3 = 0
  · rw [if_pos h0] at ha; cases ha
  · rw [if_neg h0] at ha
    by_cases hc : ¬ (g < (p.length : ℤ)) ∨ g < 0
    · rw [if_pos hc] at ha; cases ha
    · rw [if_neg hc] at ha
      cases hb : p[g.toNat]? with
      | none => rw [hb] at ha; cases ha
      | some b =>
        rw [hb] at ha
        dsimp only at ha
        by_cases he : b.edges ≠ bcEdges p * 3 / 3
        · rw [if_pos he] at ha; cases ha
        · rw [if_neg he] at ha
          by_cases hd : b.dirichlet = false
          · rw [if_pos hd] at ha; cases ha
          · rw [if_neg hd] at ha
            cases ha
            have hd : b.dirichlet = true := by simpa using hd
            rcases h1 p hp with hn | ⟨k, hk⟩
            · exact absurd (hn b (List.mem_of_getElem? hb)) (by rw [hd]; decide)
            · have hkg : g.toNat = k := hk.2 _ b hb hd
              exact ⟨hkg ▸ hk, b, hb, by omega, by omega⟩

/-- What a process does with the common index: nothing without edges of a Dirichlet boundary, the right thing if its Dirichlet boundary is at that position, and otherwise it ends the run. -/
theorem bcApply_cases {g : ℕ} {p : List LocalBnd} (h : AtMostOne p) : bcApply (g : ℤ) p =
    if bcEdges p = 0 then .ok none else if dirBcIndex p = (g : ℤ) then .ok (some g) else .error := by
  unfold bcApply
  by_cases h0 : bcEdges p = 0
  · rw [if_pos (by omega), if_pos h0]
  · rw [if_neg (by omega), if_neg h0]
    rcases h with hn | ⟨k, hk⟩
    · exact absurd (edges_of_none hn) h0
    · obtain ⟨c, hc1, hc2⟩ := hk.1
      rw [(index_of_onlyAt hk).1]
      by_cases hkg : k = g
      · subst hkg
        have hl : k < p.length := (List.getElem?_eq_some_iff.mp hc1).1
        rw [if_neg (by omega), if_pos rfl, Int.toNat_natCast, hc1]
        dsimp only
        rw [if_neg (by rw [edges_of_onlyAt hk hc1]; omega), if_neg (by rw [hc2]; decide)]
      · rw [if_neg (show ¬ ((k : ℤ) = (g : ℤ)) by omega)]
        by_cases hl : g < p.length
        · rw [if_neg (by omega), Int.toNat_natCast, List.getElem?_eq_getElem hl]
          dsimp only
          have hd : (p[g]).dirichlet = false := by
            by_contra hd
            exact hkg (hk.2 g _ (List.getElem?_eq_getElem hl) (by simpa using hd)).symm
          rw [if_pos hd]
          split <;> rfl
        · rw [if_pos (by omega)]

/-- The run goes on exactly if the Dirichlet boundary is at the same position on all processes that hold edges of it, the largest of the positions. -/
theorem C128_runs_iff {ps : List (List LocalBnd)} {g : ℤ} (h : bcOpen ps = .ok g) :
    (∀ p ∈ ps, ∃ o, bcApply g p = .ok o) ↔ ∀ p ∈ ps, 0 < bcEdges p → ∀ q ∈ ps, ∀ i j : ℕ, OnlyAt p i → OnlyAt q j → j ≤ i := by
  obtain ⟨h1, hg, hpos⟩ := bcOpen_ok h
  obtain ⟨n, rfl⟩ : ∃ n : ℕ, g = n := ⟨g.toNat, by omega⟩
  obtain ⟨-, hmax, hmem⟩ := foldl_max_int (ps.map dirBcIndex) (-1)
  change (n : ℤ) = (ps.map dirBcIndex).foldl max (-1) at hg
  rw [← hg] at hmax hmem
  constructor
  · intro ha p hp he q hq i j hi hj
    obtain ⟨o, ho⟩ := ha p hp
    rw [bcApply_cases (h1 p hp), if_neg (by omega)] at ho
    by_cases hx : dirBcIndex p = (n : ℤ)
    · rw [(index_of_onlyAt hi).1] at hx
      have := hmax (dirBcIndex q) (List.mem_map_of_mem hq)
      rw [(index_of_onlyAt hj).1] at this
      omega
    · rw [if_neg hx] at ho; cases ho
  · intro ha p hp
    rw [bcApply_cases (h1 p hp)]
    by_cases h0 : bcEdges p = 0
    · rw [if_pos h0]; exact ⟨_, rfl⟩
    · rw [if_neg h0]
      rcases h1 p hp with hn | ⟨i, hi⟩
      · exact absurd (edges_of_none hn) h0
      · have hx : dirBcIndex p = (n : ℤ) := by
          rcases hmem with hm | hm
          · omega
          · obtain ⟨q, hq, hqe⟩ := List.mem_map.mp hm
            rcases h1 q hq with hn | ⟨j, hj⟩
            · rw [(index_of_none hn).1] at hqe; omega
            · have hle := ha p hp (by omega) q hq i j hi hj
              have hup := hmax (dirBcIndex p) (List.mem_map_of_mem hp)
              rw [(index_of_onlyAt hj).1] at hqe
              rw [(index_of_onlyAt hi).1] at hup ⊢
              omega
        rw [if_pos hx]
        exact ⟨_, rfl⟩

/-- On one process the values reach the Dirichlet boundary. On several this holds if it has the same position on all of them, see `C128_runs_iff`; otherwise see below. -/
theorem C128_one_process_partial {p : List LocalBnd} {i : ℕ} {b : LocalBnd} (h : OnlyAt p i) (hb : p[i]? = some b) (he : 0 < b.edges) :
    bcOpen [p] = .ok (i : ℤ) ∧ bcApply (i : ℤ) p = .ok (some i) := by
  have hx := (index_of_onlyAt h).1
  have hg : bcGlobal [p] = (i : ℤ) := by
    unfold bcGlobal
    simp only [List.map_cons, List.map_nil, List.foldl_cons, List.foldl_nil, hx]
    exact max_eq_right (by omega)
  constructor
  · unfold bcOpen
    rw [hg]
    simp [(index_of_onlyAt h).2]
    omega
  · rw [bcApply_cases (Or.inr ⟨i, h⟩), edges_of_onlyAt h hb, if_neg (by omega), if_pos hx]

/-- For data that vary in space, the midpoints are those of the boundary that gets the values, and such a run goes on exactly if one with uniform data does. -/
theorem C128_unstructured (ps : List (List LocalBnd)) : (bcRunsU ps ↔ bcRuns ps) ∧
    ∀ g, bcOpen ps = .ok g → ∀ p ∈ ps, ∀ o, bcApply g p = .ok o → bcMidpoints g p = .ok o := by
  have key : ∀ g, bcOpen ps = .ok g → ∀ p ∈ ps, ∀ o, bcApply g p = .ok o → bcMidpoints g p = .ok o := by
    intro g h p hp o ho
    obtain ⟨h1, -, hpos⟩ := bcOpen_ok h
    obtain ⟨n, rfl⟩ : ∃ n : ℕ, g = n := ⟨g.toNat, by omega⟩
    rw [bcApply_cases (h1 p hp)] at ho
    unfold bcMidpoints
    by_cases h0 : bcEdges p = 0
    · rw [if_pos h0] at ho
      rw [if_neg (by omega)]
      exact ho
    · rw [if_neg h0] at ho
      by_cases hx : dirBcIndex p = (n : ℤ)
      · rw [if_pos hx] at ho
        rcases h1 p hp with hn | ⟨k, hk⟩
        · exact absurd (edges_of_none hn) h0
        · obtain ⟨c, hc1, hc2⟩ := hk.1
          rw [(index_of_onlyAt hk).1] at hx
          have hkn : k = n := by omega
          subst hkn
          have hl : k < p.length := (List.getElem?_eq_some_iff.mp hc1).1
          rw [if_pos (by omega), if_neg (by omega), Int.toNat_natCast, hc1]
          dsimp only
          rw [if_neg (by rw [edges_of_onlyAt hk hc1]; exact fun h => h rfl)]
          exact ho
      · rw [if_neg hx] at ho; cases ho
  refine ⟨⟨fun ⟨g, h1, _, h3⟩ => ⟨g, h1, h3⟩, fun ⟨g, h1, h3⟩ => ⟨g, h1, fun p hp => ?_, h3⟩⟩, key⟩
  obtain ⟨o, ho⟩ := h3 p hp
  exact ⟨o, key g h1 p hp o ho⟩

/-! ### Examples -/

/-- A process with a reflecting and the Dirichlet boundary. -/
def exBoth : List LocalBnd := [⟨false, 4⟩, ⟨true, 2⟩]

/-- A process that holds only edges of the Dirichlet boundary. -/
def exOnly : List LocalBnd := [⟨true, 3⟩]

theorem exBoth_only : OnlyAt exBoth 1 := by
  refine ⟨⟨⟨true, 2⟩, rfl, rfl⟩, fun j b hj hb => ?_⟩
  match j, hj with
  | 0, hj => simp [exBoth] at hj; subst hj; cases hb
  | 1, _ => rfl
  | (j + 2), hj => simp [exBoth] at hj

theorem exOnly_only : OnlyAt exOnly 0 := by
  refine ⟨⟨⟨true, 3⟩, rfl, rfl⟩, fun j b hj hb => ?_⟩
  match j, hj with
  | 0, _ => rfl
  | (j + 1), hj => simp [exOnly] at hj

theorem exTwo_open : bcOpen [exBoth, exOnly] = .ok 1 := rfl

/-- The positions of boundaries differ between processes, but one position is used on all of them: with two processes, one of which holds edges of a further boundary, the run ends with an
error at the first values, although there is a single Dirichlet boundary and the file was accepted. -/
theorem C128_numbering_violated : ∃ p q : List LocalBnd, (∃ i, OnlyAt p i) ∧ (∃ i, OnlyAt q i) ∧ bcRuns [p] ∧ bcRuns [q] ∧ (∃ g, bcOpen [p, q] = .ok g) ∧ ¬ bcRuns [p, q] := by
  refine ⟨exBoth, exOnly, ⟨1, exBoth_only⟩, ⟨0, exOnly_only⟩, ?_, ?_, ⟨1, exTwo_open⟩, ?_⟩
  · obtain ⟨h1, h2⟩ := C128_one_process_partial exBoth_only rfl (by decide)
    exact ⟨_, h1, fun p hp => by rw [List.mem_singleton.mp hp]; exact ⟨_, h2⟩⟩
  · obtain ⟨h1, h2⟩ := C128_one_process_partial exOnly_only rfl (by decide)
    exact ⟨_, h1, fun p hp => by rw [List.mem_singleton.mp hp]; exact ⟨_, h2⟩⟩
  · rintro ⟨g, hg, ha⟩
    have := (C128_runs_iff hg).mp ha exOnly (by simp) (by decide) exBoth (by simp) 0 1 exOnly_only exBoth_only
    omega

example : (∀ p ∈ [exBoth, exOnly], AtMostOne p) ∧ ∃ p ∈ [exBoth, exOnly], ∃ i, OnlyAt p i := (C128_accepted_iff _).mp ⟨1, exTwo_open⟩

example : OnlyAt exBoth 1 := (C128_right_boundary exTwo_open (by simp) (show bcApply 1 exBoth = .ok (some 1) from rfl)).1

/-- Two processes with the Dirichlet boundary at the same position go on. -/
example : bcRuns [exBoth, exBoth] := by
  refine ⟨1, rfl, (C128_runs_iff (ps := [exBoth, exBoth]) (g := 1) rfl).mpr ?_⟩
  intro p hp _ q hq i j hi hj
  simp at hp hq
  subst hp; subst hq
  exact (hj.unique hi).le

/-- Data that vary in space on the two processes with differing positions do not work either. -/
example : ¬ bcRunsU [exBoth, exOnly] := by
  intro h
  obtain ⟨g, hg, ha⟩ := (C128_unstructured _).1.mp h
  have := (C128_runs_iff hg).mp ha exOnly (by simp) (by decide) exBoth (by simp) 0 1 exOnly_only exBoth_only
  omega

example : bcMidpoints 1 exBoth = .ok (some 1) := (C128_unstructured [exBoth, exOnly]).2 1 exTwo_open exBoth (by simp) _ rfl

end RDy
