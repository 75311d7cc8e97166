import Verif.Model.PetscOp
import Mathlib.Tactic.Common

/-!
# C56: operator composition and named fields
-/

namespace RDy

variable {V S : Type}

theorem NameCfg.same_iff (c : NameCfg) (a b : Str) :
    c.same a b = true ↔ a.take c.maxLen = b.take c.maxLen := by simp [NameCfg.same]

theorem NameCfg.same_stored (c : NameCfg) (a b : Str) : c.same a (c.stored b) = c.same a b := by
  simp [NameCfg.same, NameCfg.stored, List.take_take]

/-! ### Fields form a map -/

/-- Specification: an abstract map from (truncated) names to values. -/
def fieldMap (c : NameCfg) (f : OpFields V) : Str → Option V := fun name => f.get c name

/-- Every name occurs at most once and stored names are truncated. -/
def OpFields.Ok (c : NameCfg) (f : OpFields V) : Prop :=
  f.entries.length ≤ f.capacity ∧
  f.entries.Pairwise fun a b => c.same a.1 b.1 = false

theorem lastMatch_spec (c : NameCfg) (name : Str) (l : List (Str × V)) :
    match lastMatch c name l with
    | none => ∀ e ∈ l, c.same name e.1 = false
    | some i => ∃ e, l[i]? = some e ∧ c.same name e.1 = true := by
  unfold lastMatch
  induction l using List.reverseRecOn with
  | nil => simp
  | append_singleton l x ih =>
    rw [List.zipIdx_append, List.foldl_append]
    simp only [List.zipIdx_cons, List.zipIdx_nil, List.foldl_cons, List.foldl_nil]
    by_cases hx : c.same name x.1 = true
    · rw [if_pos hx]
      simp only [Nat.zero_add]
      exact ⟨x, by simp, hx⟩
    · rw [if_neg hx]
      cases hf : List.foldl (fun index e => if c.same name e.1.1 = true then some e.2 else index) none
          l.zipIdx with
      | none =>
        rw [hf] at ih
        intro e he
        rcases List.mem_append.mp he with h | h
        · exact ih e h
        · rw [List.mem_singleton.mp h]; simpa using hx
      | some i =>
        rw [hf] at ih
        obtain ⟨e, h1, h2⟩ := ih
        refine ⟨e, ?_, h2⟩
        rw [List.getElem?_append_left]
        · exact h1
        · exact (List.getElem?_eq_some_iff.mp h1).1

theorem NameCfg.same_trans (c : NameCfg) {x y z : Str} (h1 : c.same x y = true)
    (h2 : c.same x z = true) : c.same y z = true := by
  rw [NameCfg.same_iff] at *
  rw [← h1, h2]

theorem find_unique (c : NameCfg) (name : Str) (l : List (Str × V))
    (hp : l.Pairwise fun a b => c.same a.1 b.1 = false) (i : ℕ) (e : Str × V)
    (h1 : l[i]? = some e) (h2 : c.same name e.1 = true) :
    l.find? (fun e => c.same name e.1) = some e := by
  induction l generalizing i with
  | nil => simp at h1
  | cons x l ih =>
    rw [List.pairwise_cons] at hp
    cases i with
    | zero =>
      have : x = e := by simpa using h1
      subst this
      simp [h2]
    | succ i =>
      have h1' : l[i]? = some e := by simpa using h1
      have hx : c.same name x.1 ≠ true := by
        intro hc
        have := hp.1 e (List.mem_of_getElem? h1')
        have := c.same_trans hc h2
        simp_all
      rw [List.find?_cons_of_neg (p := fun e : Str × V => c.same name e.1) (a := x) hx]
      exact ih hp.2 i h1'

theorem grow_ok (n cap : ℕ) (h : n ≤ cap) : n + 1 ≤ grow n cap := by
  unfold grow
  split
  · split <;> omega
  · omega

theorem OpFields.set_ok (c : NameCfg) (f : OpFields V) (hf : f.Ok c) (name : Str) (v : V) :
    (f.set c name v).Ok c := by
  obtain ⟨h1, h2⟩ := hf
  unfold OpFields.set
  have hs := lastMatch_spec c name f.entries
  cases hl : lastMatch c name f.entries with
  | none =>
    rw [hl] at hs
    simp only at hs
    refine ⟨by simpa using grow_ok _ _ h1, ?_⟩
    rw [List.pairwise_append]
    refine ⟨h2, by simp, ?_⟩
    intro a ha b hb
    rw [List.mem_singleton.mp hb]
    simp only
    have := hs a ha
    rw [c.same_stored]
    simp [NameCfg.same] at this ⊢
    exact fun hc => this hc.symm
  | some i =>
    rw [hl] at hs
    obtain ⟨e, g1, g2⟩ := hs
    refine ⟨by simpa using h1, ?_⟩
    simp only
    rw [List.pairwise_iff_getElem] at h2 ⊢
    obtain ⟨hi, hie⟩ := List.getElem?_eq_some_iff.mp g1
    have hin : name.take c.maxLen = e.1.take c.maxLen := by simpa [NameCfg.same] using g2
    intro a b ha hb hab
    have ha' : a < f.entries.length := by simpa using ha
    have hb' : b < f.entries.length := by simpa using hb
    have h3 := h2 a b ha' hb' hab
    have key : ∀ k (hk : k < (f.entries.set i (c.stored name, v)).length)
        (hk' : k < f.entries.length),
        ((f.entries.set i (c.stored name, v))[k].1).take c.maxLen = (f.entries[k].1).take c.maxLen := by
      intro k hk hk'
      rw [List.getElem_set]
      by_cases hik : i = k
      · rw [if_pos hik]
        subst hik
        simp only [NameCfg.stored, List.take_take, Nat.min_self]
        rw [hin, hie]
      · rw [if_neg hik]
    simp only [NameCfg.same, decide_eq_false_iff_not] at h3 ⊢
    rw [key a ha ha', key b hb hb']
    exact h3

theorem empty_ok (c : NameCfg) : (⟨[], 0⟩ : OpFields V).Ok c := by simp [OpFields.Ok]

/-- C56 (map): after any sequence of `PetscOperatorSetField` calls, setting a field makes it the one
that is found under its name, and every other name finds what it found before. Names are compared up
to their first `MAX_NAME_LEN` characters. -/
theorem C56_map (c : NameCfg) (calls : List (Str × V)) (name : Str) (v : V) (other : Str) :
    let f := calls.foldl (fun f p => f.set c p.1 p.2) (⟨[], 0⟩ : OpFields V)
    fieldMap c (f.set c name v) other =
      if other.take c.maxLen = name.take c.maxLen then some v else fieldMap c f other := by
  intro f
  have hok : f.Ok c := by
    have : ∀ (calls : List (Str × V)) (f : OpFields V), f.Ok c →
        (calls.foldl (fun f p => f.set c p.1 p.2) f).Ok c := by
      intro calls
      induction calls with
      | nil => intro f hf; exact hf
      | cons p ps ih => intro f hf; exact ih _ (f.set_ok c hf p.1 p.2)
    exact this calls _ (empty_ok c)
  clear_value f
  have hok' := f.set_ok c hok name v
  unfold fieldMap OpFields.get
  have hs := lastMatch_spec c name f.entries
  by_cases hn : other.take c.maxLen = name.take c.maxLen
  · rw [if_pos hn]
    have hsame : c.same other (c.stored name) = true := by
      rw [c.same_stored]; simpa [NameCfg.same] using hn
    have hex : ∃ i : ℕ, (f.set c name v).entries[i]? = some (c.stored name, v) := by
      unfold OpFields.set
      cases hl : lastMatch c name f.entries with
      | none => exact ⟨f.entries.length, by simp⟩
      | some i =>
        rw [hl] at hs
        obtain ⟨e, g1, _⟩ := hs
        obtain ⟨hi, _⟩ := List.getElem?_eq_some_iff.mp g1
        exact ⟨i, by simp [hi]⟩
    obtain ⟨i, hi⟩ := hex
    rw [find_unique c other _ hok'.2 i _ hi hsame]
    rfl
  · rw [if_neg hn]
    have hns : c.same other (c.stored name) = false := by
      rw [c.same_stored]; simpa [NameCfg.same] using hn
    unfold OpFields.set
    cases hl : lastMatch c name f.entries with
    | none =>
      simp only
      rw [List.find?_append]
      have : List.find? (fun e => c.same other e.1) [(c.stored name, v)] = none := by
        simp [hns]
      rw [this, Option.or_none]
    | some i =>
      rw [hl] at hs
      obtain ⟨e, g1, g2⟩ := hs
      simp only
      have hne : c.same other e.1 = false := by
        by_contra hc
        have hc' : c.same other e.1 = true := by simpa using hc
        rw [NameCfg.same_iff] at hc' g2
        exact hn (hc'.trans g2.symm)
      have key : ∀ (l : List (Str × V)) (i : ℕ), l[i]? = some e →
          (l.set i (c.stored name, v)).find? (fun e => c.same other e.1) =
            l.find? (fun e => c.same other e.1) := by
        intro l
        induction l with
        | nil => intro i h; simp at h
        | cons x l ih =>
          intro i h
          cases i with
          | zero =>
            have : x = e := by simpa using h
            subst this
            simp [hns, hne]
          | succ i =>
            have h' : l[i]? = some e := by simpa using h
            by_cases hx : c.same other x.1 = true
            · simp [hx]
            · simp only [List.set_cons_succ]
              rw [List.find?_cons_of_neg (p := fun e : Str × V => c.same other e.1) (a := x) hx,
                List.find?_cons_of_neg (p := fun e : Str × V => c.same other e.1) (a := x) hx, ih i h']
      rw [key _ i g1]

example : fieldMap (V := ℕ) ⟨8⟩ (([(['a'], 1), (['b'], 2), (['a'], 3)] : List (Str × ℕ)).foldl
    (fun f p => f.set ⟨8⟩ p.1 p.2) ⟨[], 0⟩) ['a'] = some 3 := by decide

/-- C56 (memory): the array of fields and the array of sub-operators always have room for the entry
that is written, after any number of additions. -/
theorem C56_capacity (c : NameCfg) (calls : List (Str × V)) (n : ℕ) :
    (let f := calls.foldl (fun f p => f.set c p.1 p.2) (⟨[], 0⟩ : OpFields V)
     f.entries.length ≤ f.capacity) ∧
    n ≤ (List.range n).foldl (fun cap k => grow k cap) 0 := by
  constructor
  · have : ∀ (calls : List (Str × V)) (f : OpFields V), f.Ok c →
        (calls.foldl (fun f p => f.set c p.1 p.2) f).Ok c := by
      intro calls
      induction calls with
      | nil => intro f hf; exact hf
      | cons p ps ih => intro f hf; exact ih _ (f.set_ok c hf p.1 p.2)
    exact (this calls _ (empty_ok c)).1
  · induction n with
    | zero => simp
    | succ n ih =>
      rw [List.range_succ, List.foldl_append, List.foldl_cons, List.foldl_nil]
      exact grow_ok _ _ ih

/-- C56 (long names): two names that differ only after `MAX_NAME_LEN` characters denote the same
field. -/
theorem C56_long_names_violated (c : NameCfg) (pre a b : Str) (h : pre.length = c.maxLen) (v w : V) :
    fieldMap c ((OpFields.set c ⟨[], 0⟩ (pre ++ a) v).set c (pre ++ b) w) (pre ++ a) = some w := by
  have := C56_map c [(pre ++ a, v)] (pre ++ b) w (pre ++ a)
  simp only [List.foldl_cons, List.foldl_nil] at this
  rw [this, if_pos]
  rw [← h]; simp

example : (['x', 'y'] : Str).length = (⟨2⟩ : NameCfg).maxLen := rfl

/-! ### Composition is a sequence -/

mutual
/-- Specification: the elementary parts of an operator, in order. -/
def POp.leaves : POp V S → List (OpFields V × (OpFields V → S → S))
  | .leaf f act => [(f, act)]
  | .comp _ _ subs => POp.leavesAll subs
/-- Specification: the elementary parts of several operators. -/
def POp.leavesAll : List (POp V S) → List (OpFields V × (OpFields V → S → S))
  | [] => []
  | o :: os => POp.leaves o ++ POp.leavesAll os
end

theorem POp.leavesAll_append (a b : List (POp V S)) :
    POp.leavesAll (a ++ b) = POp.leavesAll a ++ POp.leavesAll b := by
  induction a with
  | nil => simp [POp.leavesAll]
  | cons o os ih => simp [POp.leavesAll, ih]

mutual
theorem POp.apply_leaves : ∀ (op : POp V S) (s : S),
    op.apply s = op.leaves.foldl (fun s l => l.2 l.1 s) s
  | .leaf f act, s => by simp [POp.apply, POp.leaves]
  | .comp _ _ subs, s => by
    rw [POp.apply, POp.leaves]
    exact POp.applyAll_leaves subs s
theorem POp.applyAll_leaves : ∀ (ops : List (POp V S)) (s : S),
    POp.applyAll ops s = (POp.leavesAll ops).foldl (fun s l => l.2 l.1 s) s
  | [], s => by simp [POp.applyAll, POp.leavesAll]
  | o :: os, s => by
    rw [POp.applyAll, POp.leavesAll, List.foldl_append, ← POp.apply_leaves o s]
    exact POp.applyAll_leaves os _
end

/-- C56 (sequence): a composite built from any list of parts — themselves possibly composites —
applies every elementary part exactly once, in the order of insertion. -/
theorem C56_sequence (parts : List (POp V S)) :
    ∃ op, (parts.foldlM POp.addSub (POp.createComposite : POp V S)) = some op ∧
      ∀ s, op.apply s = (parts.flatMap POp.leaves).foldl (fun s l => l.2 l.1 s) s := by
  have key : ∀ (parts : List (POp V S)) (f : OpFields V) (cap : ℕ) (subs : List (POp V S)),
      ∃ cap', parts.foldlM POp.addSub (.comp f cap subs) = some (.comp f cap' (subs ++ parts)) := by
    intro parts
    induction parts with
    | nil => intro f cap subs; exact ⟨cap, by simp⟩
    | cons p ps ih =>
      intro f cap subs
      rw [List.foldlM_cons]
      simp only [POp.addSub]
      obtain ⟨cap', h⟩ := ih f (grow subs.length cap) (subs ++ [p])
      exact ⟨cap', by simpa using h⟩
  obtain ⟨cap', h⟩ := key parts ⟨[], 0⟩ 0 []
  refine ⟨_, h, ?_⟩
  intro s
  rw [POp.apply_leaves, POp.leaves]
  congr 1
  have : ∀ ps : List (POp V S), POp.leavesAll ps = ps.flatMap POp.leaves := by
    intro ps
    induction ps with
    | nil => simp [POp.leavesAll]
    | cons p ps ih => simp [POp.leavesAll, ih]
  simpa using this parts

/-- Three parts that append their number to a log. -/
def exPart (k : ℕ) : POp ℕ (List ℕ) := POp.create fun _ s => s ++ [k]

example : ∃ op, [exPart 1, exPart 2, exPart 3].foldlM POp.addSub POp.createComposite = some op ∧
    op.apply [] = [1, 2, 3] := by
  obtain ⟨op, h1, h2⟩ := C56_sequence [exPart 1, exPart 2, exPart 3]
  exact ⟨op, h1, by rw [h2]; simp [exPart, POp.create, POp.leaves]⟩

mutual
theorem POp.setField_leaves (c : NameCfg) (name : Str) (v : V) : ∀ (op : POp V S),
    (op.setField c name v).leaves = op.leaves.map fun l => (l.1.set c name v, l.2)
  | .leaf f act => by simp [POp.setField, POp.leaves]
  | .comp _ _ subs => by
    rw [POp.setField, POp.leaves, POp.leaves]
    exact POp.setFieldAll_leaves c name v subs
theorem POp.setFieldAll_leaves (c : NameCfg) (name : Str) (v : V) : ∀ (ops : List (POp V S)),
    POp.leavesAll (POp.setFieldAll c name v ops) =
      (POp.leavesAll ops).map fun l => (l.1.set c name v, l.2)
  | [] => by simp [POp.setFieldAll, POp.leavesAll]
  | o :: os => by
    rw [POp.setFieldAll, POp.leavesAll, POp.leavesAll, List.map_append,
      POp.setField_leaves c name v o, POp.setFieldAll_leaves c name v os]
end

/-- Operators as they are built by the API: by creating, composing and setting fields. -/
inductive Built (c : NameCfg) : POp V S → Prop
  | create (act : OpFields V → S → S) : Built c (POp.create act)
  | composite : Built c POp.createComposite
  | add {op sub op' : POp V S} : Built c op → Built c sub → op.addSub sub = some op' → Built c op'
  | set {op : POp V S} (name : Str) (v : V) : Built c op → Built c (op.setField c name v)

/-- The field table of every elementary part is the result of a sequence of settings. -/
theorem Built.leaves_calls {c : NameCfg} {op : POp V S} (h : Built c op) :
    ∀ l ∈ op.leaves, ∃ calls : List (Str × V),
      l.1 = calls.foldl (fun f p => f.set c p.1 p.2) (⟨[], 0⟩ : OpFields V) := by
  induction h with
  | create act =>
    intro l hl
    refine ⟨[], ?_⟩
    have : l = (⟨[], 0⟩, act) := by simpa [POp.create, POp.leaves] using hl
    rw [this]
    rfl
  | composite => intro l hl; simp [POp.createComposite, POp.leaves, POp.leavesAll] at hl
  | @add op sub op' h1 h2 h3 ih1 ih2 =>
    intro l hl
    cases op with
    | leaf f act => simp [POp.addSub] at h3
    | comp f cap subs =>
      simp only [POp.addSub, Option.some.injEq] at h3
      rw [← h3, POp.leaves, POp.leavesAll_append, List.mem_append] at hl
      rcases hl with hl | hl
      · exact ih1 l (by rw [POp.leaves]; exact hl)
      · exact ih2 l (by simpa [POp.leavesAll] using hl)
  | @set op name v h1 ih =>
    intro l hl
    rw [POp.setField_leaves, List.mem_map] at hl
    obtain ⟨l0, hl0, rfl⟩ := hl
    obtain ⟨calls, hc⟩ := ih l0 hl0
    exact ⟨calls ++ [(name, v)], by rw [List.foldl_append, ← hc]; rfl⟩

/-- C56 (fields reach all parts): after setting a field on an operator built in any way, every
elementary part of it finds the new value under that name and what it found before under every
other; the parts and their order are unchanged. -/
theorem C56_fields_reach_parts (c : NameCfg) (op : POp V S) (h : Built c op) (name : Str) (v : V) :
    List.Forall₂ (fun l l' => l'.2 = l.2 ∧ ∀ other, fieldMap c l'.1 other =
        if other.take c.maxLen = name.take c.maxLen then some v else fieldMap c l.1 other)
      op.leaves (op.setField c name v).leaves := by
  rw [POp.setField_leaves, List.forall₂_map_right_iff]
  have hc := h.leaves_calls
  generalize op.leaves = ls at hc
  induction ls with
  | nil => exact List.Forall₂.nil
  | cons l ls ih =>
    refine List.Forall₂.cons ⟨rfl, ?_⟩ (ih fun l hl => hc l (by simp [hl]))
    intro other
    obtain ⟨calls, e⟩ := hc l (by simp)
    have := C56_map c calls name v other
    simp only at this
    rw [e, this]

example : Built ⟨8⟩ (exPart 1) ∧ ∃ op, POp.addSub POp.createComposite (exPart 1) = some op ∧
    Built ⟨8⟩ op := ⟨.create _, _, rfl, .add .composite (.create _) rfl⟩

/-- C56 (order of setup): a part added to a composite *after* a field was set does not see the
field. -/
theorem C56_late_part_violated (c : NameCfg) (name : Str) (v : V) (act : OpFields V → S → S) :
    ∃ op, ((POp.createComposite : POp V S).setField c name v).addSub (POp.create act) = some op ∧
      ∃ l ∈ op.leaves, fieldMap c l.1 name = none := by
  refine ⟨_, rfl, (⟨[], 0⟩, act), ?_, rfl⟩
  simp [POp.setFieldAll, POp.create, POp.leaves, POp.leavesAll]

end RDy
