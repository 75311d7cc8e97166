import Verif.Model.ConfigText
import Verif.Lemmas.Output
import Mathlib.Data.List.TakeWhile
import Mathlib.Tactic

/-!
C89: the text that is parsed is the text of the file with every `${PETSC_ID_TYPE}` replaced.

Specification: a text is cut at the occurrences of the pattern into pieces that do not contain it, and put
together again with the substitute between the pieces (`List.intercalate`).
-/

namespace RDy

/-- Specification: the text contains no NUL character. -/
def NoNul (s : Str) : Prop := ∀ c ∈ s, c ≠ '\x00'

/-- A pattern whose first character occurs only once (so that occurrences do not overlap). -/
def Simple (pat : Str) : Prop := ∃ c r, pat = c :: r ∧ c ∉ r

/-- Cutting and joining: pieces `t :: ts` with `x` between them. -/
def glue (x : Str) (t : Str) (ts : List Str) : Str := t ++ (ts.map (x ++ ·)).flatten

theorem glue_eq (x t : Str) (ts : List Str) : glue x t ts = List.intercalate x (t :: ts) := by
  induction ts generalizing t with
  | nil => simp [glue, List.intercalate]
  | cons a l ih =>
    have := ih a
    unfold glue at this ⊢
    rw [List.map_cons, List.flatten_cons]
    rw [List.intercalate_cons_cons, ← this]
    simp

/-- What may follow the last piece: nothing, or a NUL character and anything. -/
def Tail (tl : Str) : Prop := tl = [] ∨ ∃ r, tl = '\x00' :: r

theorem prefix_left {l a b : Str} (h : l <+: a ++ b) (hl : l.length ≤ a.length) : l <+: a :=
  List.prefix_of_prefix_length_le h (List.prefix_append a b) hl

theorem strstr_none (pat : Str) (hp : pat ≠ []) (hn : NoNul pat) (tl : Str) (htl : Tail tl) :
    ∀ t : Str, ¬ pat <:+: t → strstr pat (t ++ tl) = none := by
  intro t
  induction t with
  | nil =>
    intro _
    rw [List.nil_append]
    rcases htl with rfl | ⟨r, rfl⟩
    · simp [strstr, hp]
    · unfold strstr
      rw [if_neg, if_pos rfl]
      rw [List.isPrefixOf_iff_prefix]
      rcases pat with _ | ⟨c, q⟩
      · exact absurd rfl hp
      · rw [List.cons_prefix_cons]
        rintro ⟨rfl, _⟩
        exact hn '\x00' (by simp) rfl
  | cons c t ih =>
    intro h
    have h1 : ¬ pat.isPrefixOf (c :: (t ++ tl)) = true := by
      intro hh
      rw [List.isPrefixOf_iff_prefix, ← List.cons_append] at hh
      by_cases hl : pat.length ≤ (c :: t).length
      · exact h (prefix_left hh hl).isInfix
      · rcases htl with rfl | ⟨r, rfl⟩
        · rw [List.append_nil] at hh
          exact hl hh.length_le
        · have hlt : (c :: t).length < pat.length := by omega
          have e := hh.getElem hlt
          rw [List.getElem_append_right (le_refl _)] at e
          simp only [Nat.sub_self, List.getElem_cons_zero] at e
          exact hn _ (List.getElem_mem hlt) e
    rw [List.cons_append]
    unfold strstr
    rw [if_neg h1]
    by_cases hc : c = '\x00'
    · rw [if_pos hc]
    · rw [if_neg hc, ih (fun hi => h (hi.trans (List.suffix_cons c t).isInfix))]
      rfl

/-- The first occurrence in a text that begins with a piece without the pattern. -/
theorem strstr_some (pat : Str) (hs : Simple pat) : ∀ (t rest : Str), ¬ pat <:+: t → NoNul t →
    strstr pat (t ++ (pat ++ rest)) = some t.length := by
  obtain ⟨c0, r0, rfl, hc0⟩ := hs
  intro t
  induction t with
  | nil =>
    intro rest _ _
    have : List.isPrefixOf (c0 :: r0) (c0 :: (r0 ++ rest)) = true := by
      rw [List.isPrefixOf_iff_prefix]
      exact List.prefix_append (c0 :: r0) rest
    simp only [List.nil_append, List.cons_append, List.length_nil]
    unfold strstr
    rw [if_pos this]
  | cons c t ih =>
    intro rest h hn
    have h1 : ¬ List.isPrefixOf (c0 :: r0) (c :: (t ++ (c0 :: r0 ++ rest))) = true := by
      rw [List.isPrefixOf_iff_prefix, List.cons_prefix_cons]
      rintro ⟨rfl, hpre⟩
      by_cases hl : r0.length ≤ t.length
      · apply h
        exact List.IsPrefix.isInfix (by rw [List.cons_prefix_cons]; exact ⟨rfl, prefix_left hpre hl⟩)
      · -- the first character of the pattern would occur again within it
        apply hc0
        have hlt : t.length < r0.length := by omega
        have e := hpre.getElem hlt
        rw [List.getElem_append_right (le_refl _)] at e
        simp only [Nat.sub_self, List.cons_append, List.getElem_cons_zero] at e
        rw [← e]
        exact List.getElem_mem hlt
    have hc : c ≠ '\x00' := hn c (by simp)
    rw [List.cons_append]
    unfold strstr
    rw [if_neg h1, if_neg hc, ih rest (fun hi => h (hi.trans (List.suffix_cons c t).isInfix))
      (fun x hx => hn x (by simp [hx]))]
    simp

/-- The pieces of a text: without NUL and without the pattern. -/
def Piece (pat p : Str) : Prop := ¬ pat <:+: p ∧ NoNul p

theorem glue_cons (x t a : Str) (l : List Str) : glue x t (a :: l) = t ++ (x ++ glue x a l) := by
  simp [glue]

theorem glue_nil (x t : Str) : glue x t [] = t := by simp [glue]

theorem drop_piece (t pat rest : Str) : (t ++ (pat ++ rest)).drop (t.length + pat.length) = rest := by
  rw [← List.append_assoc, ← List.length_append, List.drop_left]

theorem simple_ne {pat : Str} (h : Simple pat) : pat ≠ [] := by
  obtain ⟨c, r, rfl, _⟩ := h; simp

theorem count_glue (pat : Str) (hs : Simple pat) (hn : NoNul pat) (tl : Str) (htl : Tail tl)
    (ts : List Str) : ∀ (t : Str) (fuel : ℕ), Piece pat t → (∀ p ∈ ts, Piece pat p) →
      ts.length < fuel → countOccurrences pat fuel (glue pat t ts ++ tl) = ts.length := by
  induction ts with
  | nil =>
    intro t fuel ht _ hf
    obtain ⟨f, rfl⟩ : ∃ f, fuel = f + 1 := ⟨fuel - 1, by simp at hf; omega⟩
    rw [glue_nil]
    unfold countOccurrences
    rw [strstr_none pat (simple_ne hs) hn tl htl t ht.1]
    rfl
  | cons a l ih =>
    intro t fuel ht hts hf
    obtain ⟨f, rfl⟩ : ∃ f, fuel = f + 1 := ⟨fuel - 1, by simp at hf; omega⟩
    rw [glue_cons, List.append_assoc, List.append_assoc]
    unfold countOccurrences
    rw [strstr_some pat hs t _ ht.1 ht.2]
    simp only
    rw [drop_piece, ih a f (hts a (by simp)) (fun p hp => hts p (by simp [hp]))
      (by simp at hf; omega)]
    simp

theorem copy_glue (pat sub : Str) (hs : Simple pat) (hn : NoNul pat) (tl : Str) (htl : Tail tl)
    (cap : ℕ) (ts : List Str) : ∀ (t out : Str) (fuel : ℕ), Piece pat t → (∀ p ∈ ts, Piece pat p) →
      ts.length < fuel → (out ++ (glue sub t ts ++ tl)).length ≤ cap →
      copyPass pat sub cap fuel (glue pat t ts ++ tl) out = .ok (out ++ (glue sub t ts ++ tl)) := by
  induction ts with
  | nil =>
    intro t out fuel ht _ hf hc
    obtain ⟨f, rfl⟩ : ∃ f, fuel = f + 1 := ⟨fuel - 1, by simp at hf; omega⟩
    rw [glue_nil] at hc ⊢
    rw [glue_nil]
    unfold copyPass
    rw [strstr_none pat (simple_ne hs) hn tl htl t ht.1]
    simp only [appendTo]
    rw [if_pos (by rw [List.length_append] at hc; exact hc)]
  | cons a l ih =>
    intro t out fuel ht hts hf hc
    obtain ⟨f, rfl⟩ : ∃ f, fuel = f + 1 := ⟨fuel - 1, by simp at hf; omega⟩
    rw [glue_cons, List.append_assoc, List.append_assoc] at hc
    rw [glue_cons, glue_cons, List.append_assoc, List.append_assoc, List.append_assoc,
      List.append_assoc]
    unfold copyPass
    rw [strstr_some pat hs t _ ht.1 ht.2]
    simp only [List.length_append] at hc
    simp only [appendTo, List.take_left]
    rw [if_pos (by omega)]
    simp only
    rw [if_pos (by rw [List.length_append]; omega)]
    simp only
    rw [drop_piece, ih a (out ++ t ++ sub) f (hts a (by simp)) (fun p hp => hts p (by simp [hp]))
      (by simp at hf; omega) (by simp only [List.length_append]; omega)]
    simp

theorem glue_length (x : Str) (ts : List Str) : ∀ t : Str,
    (glue x t ts).length = t.length + (ts.map List.length).sum + ts.length * x.length := by
  induction ts with
  | nil => intro t; simp [glue]
  | cons a l ih =>
    intro t
    rw [glue_cons, List.length_append, List.length_append, ih a]
    simp only [List.map_cons, List.sum_cons, List.length_cons]
    ring

theorem substitute_glue (pat sub : Str) (hs : Simple pat) (hn : NoNul pat) (tl : Str) (htl : Tail tl)
    (t : Str) (ts : List Str) (ht : Piece pat t) (hts : ∀ p ∈ ts, Piece pat p) :
    readAndSubstitute [(pat, sub)] (glue pat t ts ++ tl) = .ok (glue sub t ts ++ tl) := by
  have hp : 1 ≤ pat.length := by
    have := simple_ne hs
    rcases pat with _ | _
    · exact absurd rfl this
    · simp
  have hlen : ts.length < (glue pat t ts ++ tl).length + 1 := by
    rw [List.length_append, glue_length]
    have : ts.length * 1 ≤ ts.length * pat.length := Nat.mul_le_mul_left _ hp
    omega
  have hcount := count_glue pat hs hn tl htl ts t _ ht hts hlen
  have hsize : contentSize [(pat, sub)] (glue pat t ts ++ tl) =
      (((glue sub t ts ++ tl).length : ℤ), ts.length) := by
    unfold contentSize
    simp only [List.foldl_cons, List.foldl_nil, hcount, Nat.zero_add, Prod.mk.injEq, and_true]
    rw [List.length_append, List.length_append, glue_length, glue_length]
    push_cast
    ring
  unfold readAndSubstitute
  rw [hsize]
  simp only
  by_cases h0 : ts.length > 0
  · rw [if_pos h0, if_neg (by omega)]
    unfold copyPasses
    simp only
    have hcap : (((glue sub t ts ++ tl).length : ℤ) + 1).toNat = (glue sub t ts ++ tl).length + 1 := by
      omega
    rw [hcap, copy_glue pat sub hs hn tl htl _ ts t [] _ ht hts hlen (by simp)]
    simp only [List.nil_append]
    rw [if_pos trivial]
    rfl
  · rw [if_neg h0]
    have : ts = [] := List.length_eq_zero_iff.1 (by omega)
    subst this
    rw [glue_nil, glue_nil]

/-! ### The pattern of the table -/

/-- Specification: the pattern that users write. -/
def idPattern : Str := "${PETSC_ID_TYPE}".toList

theorem idPattern_simple : Simple idPattern :=
  ⟨'$', "{PETSC_ID_TYPE}".toList, by decide, by decide⟩

theorem idPattern_noNul : NoNul idPattern := by unfold NoNul; decide

/-- C89: a text made of pieces without the pattern, with the pattern between them, is parsed with the
substitute in place of every pattern and all pieces as they are, on every process. -/
theorem C89_substitute (idType t : Str) (ts : List Str) (rank : ℕ)
    (h : ∀ p ∈ t :: ts, ¬ idPattern <:+: p ∧ NoNul p) :
    configText idType (List.intercalate idPattern (t :: ts)) rank =
      .ok (List.intercalate idType (t :: ts)) := by
  have := substitute_glue idPattern idType idPattern_simple idPattern_noNul [] (Or.inl rfl) t ts
    (h t (by simp)) (fun p hp => h p (by simp [hp]))
  rw [List.append_nil, List.append_nil, glue_eq, glue_eq] at this
  exact this

example : configText "int64".toList "a: x.${PETSC_ID_TYPE}.bin, b: y.${PETSC_ID_TYPE}.bin".toList 3 =
    .ok "a: x.int64.bin, b: y.int64.bin".toList :=
  C89_substitute "int64".toList "a: x.".toList [".bin, b: y.".toList, ".bin".toList] 3 (by
    intro p hp
    simp only [List.mem_cons, List.not_mem_nil, or_false] at hp
    rcases hp with rfl | rfl | rfl
    · exact ⟨by decide, by unfold NoNul; decide⟩
    · exact ⟨by decide, by unfold NoNul; decide⟩
    · exact ⟨by decide, by unfold NoNul; decide⟩)

theorem pieces_exist (pat : Str) (hp : pat ≠ []) : ∀ (n : ℕ) (s : Str), s.length ≤ n → NoNul s →
    ∃ t ts, (∀ p ∈ t :: ts, Piece pat p) ∧ s = glue pat t ts := by
  intro n
  induction n with
  | zero =>
    intro s hl hn
    have : s = [] := List.length_eq_zero_iff.1 (by omega)
    subst this
    refine ⟨[], [], ?_, by simp [glue]⟩
    intro p hpm
    simp only [List.mem_singleton] at hpm
    subst hpm
    exact ⟨by simpa using hp, hn⟩
  | succ n ih =>
    intro s hl hn
    by_cases hin : pat <:+: s
    · -- the shortest prefix followed by the pattern
      obtain ⟨k, hk, hmin⟩ : ∃ k, pat <+: s.drop k ∧ ∀ j < k, ¬ pat <+: s.drop j := by
        have hex : ∃ k, pat <+: s.drop k := by
          obtain ⟨a, b, rfl⟩ := hin
          refine ⟨a.length, ?_⟩
          rw [List.append_assoc, List.drop_left]
          exact List.prefix_append _ _
        classical
        exact ⟨Nat.find hex, Nat.find_spec hex, fun j hj => Nat.find_min hex hj⟩
      obtain ⟨rest, hrest⟩ := hk
      have hpl : 0 < pat.length := List.length_pos_iff.2 hp
      have hsplit : s = s.take k ++ (pat ++ rest) := by rw [hrest, List.take_append_drop]
      have hlr : rest.length ≤ n := by
        have := congrArg List.length hsplit
        simp only [List.length_append] at this
        omega
      obtain ⟨t, ts, h1, h2⟩ := ih rest hlr (fun c hc => hn c (by rw [hsplit]; simp [hc]))
      refine ⟨s.take k, t :: ts, ?_, ?_⟩
      · intro p hpm
        rcases List.mem_cons.1 hpm with rfl | hpm
        · refine ⟨?_, fun c hc => hn c (List.mem_of_mem_take hc)⟩
          rintro ⟨a, b, hab⟩
          have hlt : a.length < k := by
            have := congrArg List.length hab
            simp only [List.length_append, List.length_take] at this
            omega
          apply hmin a.length hlt
          have : s = a ++ (pat ++ (b ++ s.drop k)) := by
            conv_lhs => rw [← List.take_append_drop k s, ← hab]
            simp
          rw [this, List.drop_left]
          exact List.prefix_append _ _
        · exact h1 p hpm
      · rw [glue_cons, ← h2]
        exact hsplit
    · refine ⟨s, [], ?_, by simp [glue]⟩
      intro p hpm
      simp only [List.mem_singleton] at hpm
      subst hpm
      exact ⟨hin, hn⟩

/-- C89: every text can be cut that way, so that the previous theorem covers all texts. -/
theorem C89_every_text (s : Str) (hn : NoNul s) :
    ∃ t ts, (∀ p ∈ t :: ts, ¬ idPattern <:+: p ∧ NoNul p) ∧ s = List.intercalate idPattern (t :: ts) := by
  obtain ⟨t, ts, h1, h2⟩ := pieces_exist idPattern (simple_ne idPattern_simple) s.length s le_rfl hn
  exact ⟨t, ts, h1, by rw [← glue_eq]; exact h2⟩

example : ∃ t ts, (∀ p ∈ t :: ts, ¬ idPattern <:+: p ∧ NoNul p) ∧
    "x: ${PETSC_ID_TYPE}${PETSC".toList = List.intercalate idPattern (t :: ts) :=
  C89_every_text _ (by unfold NoNul; decide)

theorem intercalate_infix (x : Str) : ∀ (t : Str) (ts : List Str), ts ≠ [] → x <:+: glue x t ts := by
  intro t ts h
  rcases ts with _ | ⟨a, l⟩
  · exact absurd rfl h
  · rw [glue_cons]
    exact ⟨t, glue x a l, by simp⟩

/-- C89: a text without the pattern is parsed as it is. -/
theorem C89_unchanged (idType s : Str) (rank : ℕ) (hn : NoNul s) (h : ¬ idPattern <:+: s) :
    configText idType s rank = .ok s := by
  have := C89_substitute idType s [] rank (by
    intro p hp
    simp only [List.mem_singleton] at hp
    subst hp
    exact ⟨h, hn⟩)
  simpa [List.intercalate] using this

example : configText "int32".toList "physics: {flow: swe}".toList 0 = .ok "physics: {flow: swe}".toList :=
  C89_unchanged _ _ 0 (by unfold NoNul; decide) (by decide)

/-- C89: reading never fails and never writes beyond the buffer, whatever the file contains (also NUL
characters: what follows the first of them is copied unchanged). -/
theorem C89_total (idType raw : Str) (rank : ℕ) : ∃ out, configText idType raw rank = .ok out := by
  obtain ⟨s, tl, hraw, hn, htl⟩ : ∃ s tl, raw = s ++ tl ∧ NoNul s ∧ Tail tl := by
    refine ⟨raw.takeWhile (· ≠ '\x00'), raw.dropWhile (· ≠ '\x00'), (List.takeWhile_append_dropWhile).symm,
      fun c hc => by simpa using List.mem_takeWhile_imp hc, ?_⟩
    rcases hd : raw.dropWhile (· ≠ '\x00') with _ | ⟨c, r⟩
    · exact Or.inl rfl
    · right
      have := List.head_dropWhile_not (fun x : Char => decide (x ≠ '\x00')) (l := raw) (by rw [hd]; simp)
      simp only [hd, List.head_cons] at this
      exact ⟨r, by simpa using this⟩
  obtain ⟨t, ts, h1, h2⟩ := pieces_exist idPattern (simple_ne idPattern_simple) s.length s le_rfl hn
  refine ⟨glue idType t ts ++ tl, ?_⟩
  rw [hraw, h2]
  exact substitute_glue idPattern idType idPattern_simple idPattern_noNul tl htl t ts (h1 t (by simp))
    (fun p hp => h1 p (by simp [hp]))

example : ∃ out, configText "int32".toList "a\x00${PETSC_ID_TYPE}".toList 0 = .ok out := C89_total _ _ 0

/-- C89 (violated, latent): the table has room for further patterns, but with two of them the program
fails, or writes beyond the buffer if the second substitute is shorter than its pattern. -/
theorem C89_two_patterns_violated :
    readAndSubstitute [("${A}".toList, "xx".toList), ("${B}".toList, "yyyyyy".toList)]
      "${A} ${B}".toList = .error ∧
    readAndSubstitute [("${A}".toList, "xxxx".toList), ("${B}".toList, "".toList)]
      "${A} ${B}".toList = .ub := by
  exact ⟨rfl, rfl⟩

/-! ### The prefix of output files -/

/-- C89 (prefix), the part that holds: the name of the configuration file without its extension, if the
extension does not occur before. What is missing: `C89_prefix_violated`. -/
theorem C89_prefix_partial (base : Str) (hn : NoNul base) :
    (¬ ".yaml".toList <:+: base → configPrefix (base ++ ".yaml".toList) = base) ∧
    (¬ ".yaml".toList <:+: base ++ ".yml".toList → ¬ ".yml".toList <:+: base →
      configPrefix (base ++ ".yml".toList) = base) := by
  have s1 : Simple ".yaml".toList := ⟨'.', "yaml".toList, by decide, by decide⟩
  have s2 : Simple ".yml".toList := ⟨'.', "yml".toList, by decide, by decide⟩
  constructor
  · intro h
    have := strstr_some _ s1 base [] h hn
    rw [List.append_nil] at this
    unfold configPrefix
    rw [this]
    simp
  · intro h1 h2
    have e1 := strstr_none _ (simple_ne s1) (by unfold NoNul; decide) [] (Or.inl rfl) _ h1
    have e2 := strstr_some _ s2 base [] h2 hn
    rw [List.append_nil] at e1 e2
    unfold configPrefix
    rw [e1]
    simp only
    rw [e2]
    simp

example : configPrefix "flood.yaml".toList = "flood".toList :=
  (C89_prefix_partial "flood".toList (by unfold NoNul; decide)).1 (by decide)

/-- C89 (violated): an extension in the name of a directory ends the prefix; two configuration files in
that directory write the same output files. -/
theorem C89_prefix_violated :
    configPrefix "v1.yaml.d/a.yaml".toList = configPrefix "v1.yaml.d/b.yaml".toList := by decide

/-- Specification: the file lies directly in the directory. -/
def InDir (dir path : Str) : Prop := ∃ base, path = dir ++ ('/' :: base) ∧ '/' ∉ base

theorem digitChar_ne_slash (d : ℕ) (h : d < 10) : digitChar d ≠ '/' := by
  interval_cases d <;> decide

/-- C89 (place of output files), the part that holds: for a configuration file in the working directory,
output files lie in the output directory. What is missing: `C89_directory_violated`. -/
theorem C89_directory_partial (dir name suffix : Str) (i m : ℕ) (f : Str) (hname : '/' ∉ name)
    (hs : '/' ∉ suffix) (h : indexedFilename dir (configPrefix name) i m suffix = some f) :
    InDir dir f := by
  have hp : '/' ∉ configPrefix name := by
    unfold configPrefix
    rcases strstr ".yaml".toList name with _ | k
    · simp only
      rcases strstr ".yml".toList name with _ | k
      · exact hname
      · exact fun hh => hname (List.mem_of_mem_take hh)
    · exact fun hh => hname (List.mem_of_mem_take hh)
  unfold indexedFilename at h
  rw [Option.map_eq_some_iff] at h
  obtain ⟨w, _, rfl⟩ := h
  refine ⟨configPrefix name ++ ['-'] ++ (padded w i).map digitChar ++ ['.'] ++ suffix, by simp, ?_⟩
  simp only [List.mem_append, List.mem_map, List.mem_singleton, not_or, not_exists, not_and]
  exact ⟨⟨⟨⟨hp, by decide⟩, fun d hd => digitChar_ne_slash d (padded_lt w i d hd)⟩, by decide⟩, hs⟩

example : indexedFilename "output".toList (configPrefix "flood.yaml".toList) 7 100 "h5".toList =
      some "output/flood-007.h5".toList ∧ InDir "output".toList "output/flood-007.h5".toList := by
  have h : indexedFilename "output".toList (configPrefix "flood.yaml".toList) 7 100 "h5".toList =
      some "output/flood-007.h5".toList := by decide +kernel
  exact ⟨h, C89_directory_partial _ _ _ _ _ _ (by decide) (by decide) h⟩

/-- C89 (violated): the directory of the configuration file becomes part of the names of output files.
For a configuration file in a subdirectory they would lie in a directory that is not created, for one in
the parent directory they lie outside the output directory. -/
theorem C89_directory_violated :
    indexedFilename "output".toList (configPrefix "cfg/flood.yaml".toList) 7 100 "h5".toList =
      some "output/cfg/flood-007.h5".toList ∧
    indexedFilename "output".toList (configPrefix "../flood.yaml".toList) 7 100 "h5".toList =
      some "output/../flood-007.h5".toList ∧
    ¬ InDir "output".toList "output/cfg/flood-007.h5".toList ∧
    ¬ InDir "output".toList "output/../flood-007.h5".toList := by
  refine ⟨by decide +kernel, by decide +kernel, ?_, ?_⟩
  · rintro ⟨base, h, hb⟩
    have : base = "cfg/flood-007.h5".toList := by
      have h2 := congrArg (List.drop 7) h
      simpa using h2.symm
    rw [this] at hb
    revert hb
    decide
  · rintro ⟨base, h, hb⟩
    have : base = "../flood-007.h5".toList := by
      have h2 := congrArg (List.drop 7) h
      simpa using h2.symm
    rw [this] at hb
    revert hb
    decide

end RDy
