import Verif.Model.Ensemble
import Verif.Lemmas.Output
import Mathlib.Data.List.Range
import Mathlib.Data.Nat.ModEq
import Mathlib.Order.Interval.Finset.Nat
import Mathlib.Algebra.Order.Group.Nat
import Mathlib.Data.List.Nodup

/-!
Properties C14 (ensemble decomposition) and C15 (ensemble overrides).
-/

namespace RDy

/-! ### C14 -/

theorem filter_div_length (k a n : ℕ) (hk : 0 < k) :
    ((List.range n).filter fun r => r / k = a).length = min (n - a * k) k := by
  induction n with
  | zero => simp
  | succ n ih =>
    rw [List.range_succ, List.filter_append, List.length_append, ih]
    by_cases h : n / k = a
    · have h1 : a * k ≤ n := by rw [← h]; exact Nat.div_mul_le_self n k
      have h2 : n < a * k + k := by
        rw [← h]; exact Nat.lt_div_mul_add hk
      simp [h]; omega
    · have : ¬ (a * k ≤ n ∧ n < a * k + k) := by
        rintro ⟨h1, h2⟩
        apply h
        rw [Nat.div_eq_iff hk]
        omega
      simp [h]; omega

/-- C14: for every ensemble accepted by validation and every process, the process belongs to an
existing member, and member `m` consists of exactly the `nproc / size` consecutive ranks starting
at `m * (nproc / size)`. -/
theorem C14_blocks (nproc size : ℕ) (hn : 0 < nproc) (hs : size ≠ 0)
    (hok : ensembleOk size size nproc) :
    0 < nproc / size ∧ (nproc / size) * size = nproc ∧
    (∀ r < nproc, memberOf nproc size r < size) ∧
    (∀ r m, memberOf nproc size r = m ↔
      m * (nproc / size) ≤ r ∧ r < (m + 1) * (nproc / size)) ∧
    (∀ m < size, memberSize nproc size m = nproc / size) := by
  have hdvd : size ∣ nproc := by
    have := hok.2.2 (by exact_mod_cast hs)
    exact Nat.dvd_of_mod_eq_zero (by exact_mod_cast this)
  have hk : 0 < nproc / size := Nat.div_pos (Nat.le_of_dvd hn hdvd) (by omega)
  have hmul : (nproc / size) * size = nproc := Nat.div_mul_cancel hdvd
  refine ⟨hk, hmul, ?_, ?_, ?_⟩
  · intro r hr
    unfold memberOf
    rw [Nat.div_lt_iff_lt_mul hk]
    rw [mul_comm, hmul]; exact hr
  · intro r m
    unfold memberOf
    rw [Nat.div_eq_iff hk, Nat.add_mul, one_mul]
    omega
  · intro m hm
    unfold memberSize memberOf
    rw [filter_div_length _ _ _ hk]
    have : (m + 1) * (nproc / size) ≤ nproc := by
      calc (m + 1) * (nproc / size) ≤ size * (nproc / size) := Nat.mul_le_mul_right _ hm
        _ = nproc := by rw [mul_comm, hmul]
    rw [Nat.add_mul, one_mul] at this
    omega

example : (0 < 12) ∧ (3 : ℕ) ≠ 0 ∧ ensembleOk (3 : ℕ) (3 : ℕ) 12 := by
  refine ⟨by omega, by omega, ?_⟩
  refine ⟨Or.inr (by norm_num), rfl, fun _ => by norm_num⟩

/-- C14: within a member the processes keep their order: the global rank is the first rank of the
member plus the rank inside the member. Hence (member, rank in member) determines the process. -/
theorem C14_rank_order (nproc size r : ℕ) (hn : 0 < nproc) (hs : size ≠ 0)
    (hok : ensembleOk size size nproc) :
    memberRank nproc size r < nproc / size ∧
      r = memberOf nproc size r * (nproc / size) + memberRank nproc size r := by
  obtain ⟨hk, -, -, hblk, -⟩ := C14_blocks nproc size hn hs hok
  obtain ⟨h1, h2⟩ := (hblk r _).1 rfl
  have : memberRank nproc size r = min (r - memberOf nproc size r * (nproc / size)) (nproc / size) := by
    unfold memberRank
    exact filter_div_length _ _ _ hk
  rw [this]
  rw [Nat.add_mul, one_mul] at h2
  omega

example : memberRank 12 3 9 < 12 / 3 ∧ 9 = memberOf 12 3 9 * (12 / 3) + memberRank 12 3 9 :=
  C14_rank_order 12 3 9 (by norm_num) (by norm_num) (by unfold ensembleOk; norm_num)

/-- C14: default member names are defined and pairwise distinct. -/
theorem C14_default_names_distinct (size a b : ℕ) (hs : 0 < size) (ha : a < size) (hb : b < size)
    (hne : a ≠ b) :
    ∃ s t, memberName [] size a = some s ∧ memberName [] size b = some t ∧ s ≠ t := by
  have hnd : numDigits size = some (Nat.log 10 size + 1) := by
    unfold numDigits; rw [if_neg hs.ne']
  have hm : ∀ m, memberName [] size m = some ("ensemble_".toList ++
      (padded (Nat.log 10 size + 1) m).map digitChar) := by
    intro m; unfold memberName; rw [if_pos rfl, hnd]; rfl
  refine ⟨_, _, hm a, hm b, ?_⟩
  intro h
  have h1 := map_digitChar_inj _ _ (padded_lt _ _) (padded_lt _ _) (List.append_cancel_left h)
  have h2 := congrArg beVal h1
  rw [beVal_padded, beVal_padded] at h2
  exact hne h2

example : ∃ s t, memberName [] 12 2 = some s ∧ memberName [] 12 11 = some t ∧ s ≠ t :=
  C14_default_names_distinct 12 2 11 (by norm_num) (by norm_num) (by norm_num) (by norm_num)

/-- C14: names need not be distinct when some are given by the user: a user-given name can equal a
default one (or another given one), since nothing checks it. -/
theorem C14_name_clash_violated :
    memberName [] 2 1 = memberName "ensemble_1".toList 2 0 := by decide

/-! ### C15 -/

/-- Specification: the override that applies to an entry named `n`: the last one with that name. -/
def lastNamed {α : Type} (n : Str) (ovs : List (Entry α)) : Option (Entry α) :=
  (ovs.filter fun o => o.name = n).getLast?

theorem replaceFirst_names {α : Type} (o : Entry α) (b : List (Entry α)) :
    (replaceFirst o b).map (·.name) = b.map (·.name) := by
  induction b with
  | nil => rfl
  | cons e es ih =>
    unfold replaceFirst
    split_ifs with h
    · simp [h]
    · simp [ih]

/-- C15: names, order and number of entries are preserved, for any base and overrides. -/
theorem C15_names_preserved {α : Type} (base ovs : List (Entry α)) :
    (overrideAll base ovs).map (·.name) = base.map (·.name) := by
  unfold overrideAll
  induction ovs generalizing base with
  | nil => rfl
  | cons o os ih => rw [List.foldl_cons, ih, replaceFirst_names]

theorem replaceFirst_get {α : Type} (o : Entry α) (b : List (Entry α))
    (hnd : (b.map (·.name)).Nodup) (i : ℕ) (h : i < b.length) :
    (replaceFirst o b)[i]? = some (if b[i].name = o.name then o else b[i]) := by
  induction b generalizing i with
  | nil => simp at h
  | cons e es ih =>
    simp only [List.map_cons, List.nodup_cons] at hnd
    unfold replaceFirst
    by_cases he : e.name = o.name
    · rw [if_pos he]
      cases i with
      | zero => simp [he]
      | succ i =>
        have hi : i < es.length := by simpa using h
        have hne : es[i].name ≠ o.name := by
          intro h'
          apply hnd.1
          rw [he, ← h']
          exact List.mem_map.2 ⟨_, List.getElem_mem hi, rfl⟩
        simp [hne, hi]
    · rw [if_neg he]
      cases i with
      | zero => simp [he]
      | succ i =>
        have hi : i < es.length := by simpa using h
        simpa using ih hnd.2 i hi

/-- C15: with distinct base names, every entry becomes the last override with its name, and is
unchanged when there is none. -/
theorem C15_override {α : Type} (base ovs : List (Entry α)) (hnd : (base.map (·.name)).Nodup)
    (i : ℕ) (h : i < base.length) :
    (overrideAll base ovs)[i]? = some ((lastNamed base[i].name ovs).getD base[i]) := by
  unfold overrideAll
  induction ovs generalizing base with
  | nil => simp [lastNamed, h]
  | cons o os ih =>
    rw [List.foldl_cons]
    have hnames := replaceFirst_names o base
    have hlen : (replaceFirst o base).length = base.length := by
      have := congrArg List.length hnames
      simpa using this
    have hi' : i < (replaceFirst o base).length := by omega
    have hget := replaceFirst_get o base hnd i h
    rw [List.getElem?_eq_getElem hi', Option.some.injEq] at hget
    rw [ih (replaceFirst o base) (by rw [hnames]; exact hnd) hi', hget]
    by_cases hname : base[i].name = o.name
    · rw [if_pos hname]
      congr 1
      unfold lastNamed
      rw [List.filter_cons, if_pos (by simp [hname]), hname, List.getLast?_cons]
      simp
    · rw [if_neg hname]
      congr 2
      unfold lastNamed
      rw [List.filter_cons, if_neg (by simp [Ne.symm hname])]

example : (([⟨"a".toList, 1⟩, ⟨"b".toList, 2⟩] : List (Entry ℕ)).map (·.name)).Nodup ∧
    1 < ([⟨"a".toList, 1⟩, ⟨"b".toList, 2⟩] : List (Entry ℕ)).length := by decide

/-- C15: overriding twice with the same section changes nothing more. -/
theorem C15_idempotent {α : Type} (base ovs : List (Entry α)) (hnd : (base.map (·.name)).Nodup) :
    overrideAll (overrideAll base ovs) ovs = overrideAll base ovs := by
  have hn := C15_names_preserved base ovs
  have hlen : (overrideAll base ovs).length = base.length := by
    simpa using congrArg List.length hn
  have hlen2 : (overrideAll (overrideAll base ovs) ovs).length = base.length := by
    have := congrArg List.length (C15_names_preserved (overrideAll base ovs) ovs)
    simp at this; omega
  apply List.ext_getElem?
  intro i
  by_cases h : i < base.length
  · have hi : i < (overrideAll base ovs).length := by omega
    have h1 := C15_override base ovs hnd i h
    have h2 := C15_override (overrideAll base ovs) ovs (by rw [hn]; exact hnd) i hi
    have hname : (overrideAll base ovs)[i].name = base[i].name := by
      have := congrArg (fun l => l[i]?) hn
      simpa [h, hi] using this
    rw [h2, h1, hname]
    rw [List.getElem?_eq_getElem hi, Option.some.injEq] at h1
    rw [h1]
    cases lastNamed base[i].name ovs <;> rfl
  · rw [List.getElem?_eq_none (by omega), List.getElem?_eq_none (by omega)]

example : overrideAll (overrideAll [⟨['a'], 1⟩, ⟨['b'], 2⟩] [⟨['b'], 7⟩]) [⟨['b'], 7⟩] =
    overrideAll [⟨['a'], (1 : ℕ)⟩, ⟨['b'], 2⟩] [⟨['b'], 7⟩] :=
  C15_idempotent _ _ (by decide)

/-- C15: overriding the sections of a configuration (partial: temperature conditions are excluded,
see `C15_temperature_violated`). Each section follows its own overrides only. -/
theorem C15_sections_partial {α β γ δ ε : Type} (base m : Sections α β γ δ ε) :
    (applyMember base m).materials = overrideAll base.materials m.materials ∧
    (applyMember base m).flow.map (·.name) = base.flow.map (·.name) ∧
    (applyMember base m).sediment.map (·.name) = base.sediment.map (·.name) ∧
    (applyMember base m).salinity.map (·.name) = base.salinity.map (·.name) ∧
    (m.gridFile = [] → (applyMember base m).gridFile = base.gridFile) ∧
    (m.gridFile ≠ [] → (applyMember base m).gridFile = m.gridFile) := by
  refine ⟨rfl, C15_names_preserved _ _, C15_names_preserved _ _, C15_names_preserved _ _,
    fun h => ?_, fun h => ?_⟩
  · simp [applyMember, h]
  · simp [applyMember, h]

/-- C15 refuted for temperature: a member's temperature condition never replaces anything. -/
theorem C15_temperature_violated : ∃ base m : Sections ℕ ℕ ℕ ℕ ℕ,
    (base.temperature.map (·.name)).Nodup ∧
    (applyMember base m).temperature[0]?.map (·.value) ≠
      (overrideAll base.temperature m.temperature)[0]?.map (·.value) := by
  refine ⟨⟨[], [], [], [], [], [⟨['t'], 1⟩]⟩, ⟨[], [], [], [], [], [⟨['t'], 2⟩]⟩, by decide, ?_⟩
  decide

end RDy
