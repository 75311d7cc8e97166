import Verif.Lemmas.Resources

/-!
# C95: a program gets its memory back, and no object is used after it was released

The programs are those of `Model/Resources`.  The specification is about the references that a process
owns: a run is *well defined* if no reference is released twice and no released object is accessed, and it
*leaves* `n` references if the process still owns `n` when it ends.
-/

namespace RDy

open ResOp

/-- A program started with nothing is well defined and leaves `n` references. -/
def Leaves {σ : Type} [DecidableEq σ] (p : List (Cmd σ)) (n : ℕ) : Prop :=
  ∃ t, (Heap.empty : Heap σ).run p = some t ∧ t.owned.length = n

/-- The number of marks of cells that no refinement has used: marks followed by other marks before any
refinement, and marks at the end. `m`: there are marks already. -/
def unusedMarksFrom : Bool → List ResOp → ℕ
  | m, [] => if m then 1 else 0
  | m, .mark :: os => (if m then 1 else 0) + unusedMarksFrom true os
  | _, .refine :: os => unusedMarksFrom false os
  | m, .readBase :: os => unusedMarksFrom m os
  | m, .mapBase :: os => unusedMarksFrom m os

/-- The number of marks of cells that no refinement of a run has used. -/
def unusedMarks (os : List ResOp) : ℕ := unusedMarksFrom false os

/-- Data are mapped from the base level to the current one only after a refinement. -/
def MapsAfterRefine : Bool → List ResOp → Prop
  | _, [] => True
  | f, .mark :: os => MapsAfterRefine f os
  | _, .refine :: os => MapsAfterRefine false os
  | f, .readBase :: os => MapsAfterRefine f os
  | f, .mapBase :: os => f = false ∧ MapsAfterRefine f os

/-- What a run leaves: the parsers of manufactured solutions made for tracers, the DMs of flow and tracers
and their vectors, four vectors for every refinement, and unused marks. -/
def leftover (c : ResCfg) (os : List ResOp) : ℕ :=
  (if c.sediment = true ∨ c.salinity = true then 1 else 0) +
    (if c.sediment = true then 6 + 4 * os.count .refine else 0) + unusedMarks os

/-- No reference. -/
def noRefs {σ : Type} : Abs σ := ⟨[], [], [], 0⟩

/-- The pointers of the context after `RDySetup` (`first`) or after refinement, cells being marked or not. -/
def ctxShape (c : ResCfg) (first marked : Bool) : Abs Slot :=
  { ((noRefs.run (create_ ++ configure c ++ setup c ++ (if first then [] else refine c true false) ++
      (if marked then mark else []))).getD noRefs) with leaks := 0 }

theorem ctx_start (c : ResCfg) : noRefs.takes (create_ ++ configure c ++ setup c) (ctxShape c true false) 0 = true := by
  rcases c with ⟨a, b, d, e⟩
  revert a b d e
  decide +kernel

theorem ctx_mark (c : ResCfg) (f m : Bool) :
    (ctxShape c f m).takes mark (ctxShape c f true) (if m then 1 else 0) = true := by
  rcases c with ⟨a, b, d, e⟩
  revert a b d e f m
  decide +kernel

theorem ctx_refine (c : ResCfg) (f m : Bool) :
    (ctxShape c f m).takes (refine c f m) (ctxShape c false false)
      (if c.sediment then (if f then 5 else 4) else 0) = true := by
  rcases c with ⟨a, b, d, e⟩
  revert a b d e f m
  decide +kernel

/-- The number of references that the interpreter finds after a program. -/
def Abs.left {σ : Type} [DecidableEq σ] (a : Abs σ) (p : List (Cmd σ)) : Option ℕ :=
  (a.run p).map fun b => b.own.length + b.leaks

theorem Abs.left_sound {σ : Type} [DecidableEq σ] {a : Abs σ} {p : List (Cmd σ)} {n : ℕ} (h : a.left p = some n)
    (m : ℕ) {s : Heap σ} (hs : Sound (a.add m) s) : ∃ t, s.run p = some t ∧ t.owned.length = n + m := by
  unfold Abs.left at h
  rcases hb : a.run p with _ | b
  · rw [hb] at h; exact absurd h (by simp)
  · rw [hb, Option.map_some, Option.some.injEq] at h
    obtain ⟨t, ht, hst⟩ := Abs.sound p hs (show (a.add m).run p = some (b.add m) by rw [Abs.run_add, hb]; rfl)
    refine ⟨t, ht, ?_⟩
    rw [hst.count, ← h]
    show b.own.length + (b.leaks + m) = _
    omega

theorem ctx_destroy (c : ResCfg) (f m : Bool) :
    (ctxShape c f m).left (destroy_ true (!f)) =
      some ((if c.sediment || c.salinity then 1 else 0) + (if c.sediment then (if f then 6 else 5) else 0) +
        (if m then 1 else 0)) := by
  rcases c with ⟨a, b, d, e⟩
  revert a b d e f m
  decide +kernel

theorem sound_zero {σ : Type} [DecidableEq σ] : Sound ((noRefs : Abs σ).add 0) (Heap.empty : Heap σ) := Sound.empty

/-- Data of the base level are read at any time. -/
theorem ctx_readBase (c : ResCfg) (f m : Bool) : (ctxShape c f m).takes readBase (ctxShape c f m) 0 = true := by
  rcases c with ⟨a, b, d, e⟩
  revert a b d e f m
  decide +kernel

/-- Data of the base level are mapped after a refinement. -/
theorem ctx_mapBase (c : ResCfg) (m : Bool) : (ctxShape c false m).takes mapBase (ctxShape c false m) 0 = true := by
  rcases c with ⟨a, b, d, e⟩
  revert a b d e m
  decide +kernel

/-- Marks, refinements and data of the base level in any order, and the end of the run. -/
theorem ctx_ops (c : ResCfg) (os : List ResOp) (f m : Bool) (k : ℕ) (s : Heap Slot)
    (hs : Sound ((ctxShape c f m).add k) s) (ho : MapsAfterRefine f os) :
    ∃ t, s.run (ops c f m os ++ destroy_ true (!f || decide (ResOp.refine ∈ os))) = some t ∧
      t.owned.length = k + (if c.sediment = true ∨ c.salinity = true then 1 else 0) +
        (if c.sediment = true then (if f then 6 else 5) + 4 * os.count .refine else 0) +
        unusedMarksFrom m os := by
  induction os generalizing f m k s with
  | nil =>
    obtain ⟨t, ht, hl⟩ := Abs.left_sound (ctx_destroy c f m) k hs
    refine ⟨t, by simpa [ops] using ht, ?_⟩
    rw [hl]
    rcases c with ⟨a, b, d, e⟩
    cases d <;> cases e <;> cases m <;> cases f <;> simp [unusedMarksFrom] <;> omega
  | cons o os ih =>
    cases o with
    | mark =>
      obtain ⟨t, ht, hst⟩ := Abs.takes_sound (ctx_mark c f m) k hs
      obtain ⟨t', ht', hl⟩ := ih f true _ t hst ho
      refine ⟨t', ?_, ?_⟩
      · have e : decide (ResOp.refine ∈ ResOp.mark :: os) = decide (ResOp.refine ∈ os) := by simp
        rw [e, ops, List.append_assoc, Heap.run_append, ht]
        exact ht'
      · rw [hl]
        simp only [unusedMarksFrom, List.count_cons, beq_iff_eq, reduceCtorEq, if_false, add_zero]
        omega
    | refine =>
      obtain ⟨t, ht, hst⟩ := Abs.takes_sound (ctx_refine c f m) k hs
      obtain ⟨t', ht', hl⟩ := ih false false _ t hst ho
      refine ⟨t', ?_, ?_⟩
      · have e : (!f || decide (ResOp.refine ∈ ResOp.refine :: os)) = true := by simp
        rw [e, ops, List.append_assoc, Heap.run_append, ht]
        simpa using ht'
      · rw [hl]
        simp only [unusedMarksFrom]
        rcases c with ⟨a, b, d, e⟩
        cases d <;> cases f <;> simp <;> omega
    | readBase =>
      obtain ⟨t, ht, hst⟩ := Abs.takes_sound (ctx_readBase c f m) k hs
      obtain ⟨t', ht', hl⟩ := ih f m _ t hst ho
      refine ⟨t', ?_, ?_⟩
      · have e : decide (ResOp.refine ∈ ResOp.readBase :: os) = decide (ResOp.refine ∈ os) := by simp
        rw [e, ops, List.append_assoc, Heap.run_append, ht]
        exact ht'
      · rw [hl]
        simp only [unusedMarksFrom, List.count_cons, beq_iff_eq, reduceCtorEq, if_false, add_zero]
    | mapBase =>
      obtain ⟨rfl, ho⟩ := ho
      obtain ⟨t, ht, hst⟩ := Abs.takes_sound (ctx_mapBase c m) k hs
      obtain ⟨t', ht', hl⟩ := ih false m _ t hst ho
      refine ⟨t', ?_, ?_⟩
      · have e : decide (ResOp.refine ∈ ResOp.mapBase :: os) = decide (ResOp.refine ∈ os) := by simp
        rw [e, ops, List.append_assoc, Heap.run_append, ht]
        exact ht'
      · rw [hl]
        simp only [unusedMarksFrom, List.count_cons, beq_iff_eq, reduceCtorEq, if_false, add_zero]

/-- C95 (context): every run that creates a context, sets it up, marks and refines cells and reads data of the
base level any number of times in any order (mapping them to the current mesh only after a refinement) and
destroys the context is well defined: no reference is released twice, no object is accessed after its last
reference is gone. It leaves the references of `leftover`. -/
theorem C95_context (c : ResCfg) (os : List ResOp) (ho : MapsAfterRefine true os) :
    Leaves (lifetime c os) (leftover c os) := by
  obtain ⟨t, ht, hst⟩ := Abs.takes_sound (ctx_start c) 0 sound_zero
  obtain ⟨t', ht', hl⟩ := ctx_ops c os true false _ t hst ho
  refine ⟨t', ?_, ?_⟩
  · rw [lifetime, List.append_assoc (create_ ++ configure c ++ setup c), Heap.run_append, ht]
    simpa using ht'
  · rw [hl, leftover]; simp [unusedMarks]

/-- The program `rdycore_amr` with data files (`driver/amr.c:195-229`): read, mark, refine, and then read, map,
mark and refine, in an ensemble with sediment. -/
example : Leaves (lifetime ⟨true, true, true, false⟩ [.readBase, .mark, .refine, .readBase, .mapBase, .mark, .refine])
    15 :=
  C95_context ⟨true, true, true, false⟩ [.readBase, .mark, .refine, .readBase, .mapBase, .mark, .refine]
    ⟨rfl, trivial⟩

/-- C95 (base level, violated): mapping data from the base level to the current mesh before any refinement
accesses a matrix that does not exist, although the two meshes are the same. -/
theorem C95_map_before_refinement_violated (c : ResCfg) : (Heap.empty : Heap Slot).run (create_ ++ configure c ++ setup c ++ mapBase) = none := by
  obtain ⟨t, ht, hst⟩ := Abs.takes_sound (ctx_start c) 0 sound_zero
  rw [Heap.run_append, ht]
  have hb : t.ptr .baseToCurrent1 = none := by
    refine hst.null _ ?_
    have : ∀ c, ((ctxShape c true false).add (0 + 0)).isNull .baseToCurrent1 = true := by
      rintro ⟨a, b, d, e⟩
      revert a b d e
      decide +kernel
    exact this c
  have hu : ∀ (s u : Heap Slot) (x : Slot), s.exec (.use x) = some u → u = s := by
    intro s u x h
    unfold Heap.exec at h
    dsimp only at h
    cases hx : s.ptr x with
    | none => rw [hx] at h; exact absurd h (by simp)
    | some i =>
      rw [hx] at h
      dsimp only at h
      by_cases ha : s.Alive i
      · rw [if_pos ha] at h; exact (Option.some.inj h).symm
      · rw [if_neg ha] at h; exact absurd h (by simp)
  have hlast : t.exec (.use .baseToCurrent1) = none := by
    unfold Heap.exec; dsimp only; rw [hb]
  show t.run mapBase = none
  unfold mapBase Heap.run
  cases h1 : t.exec (.use .dm1dofBase) with
  | none => rfl
  | some t1 =>
    rw [hu _ _ _ h1]
    dsimp only
    unfold Heap.run
    cases h2 : t.exec (.use .dm1dof) with
    | none => rfl
    | some t2 =>
      rw [hu _ _ _ h2]
      dsimp only
      unfold Heap.run
      rw [hlast]

/-- C95 (context, everything released): without sediment and salinity, and if every mark of cells is followed
by a refinement, nothing is left. -/
theorem C95_context_partial (c : ResCfg) (hs : c.sediment = false) (ht : c.salinity = false) (os : List ResOp)
    (ho : MapsAfterRefine true os) (hm : unusedMarks os = 0) :
    ∃ t, (Heap.empty : Heap Slot).run (lifetime c os) = some t ∧ t.owned = [] := by
  obtain ⟨t, h, hl⟩ := C95_context c os ho
  refine ⟨t, h, List.eq_nil_of_length_eq_zero ?_⟩
  rw [hl, leftover, hs, ht, hm]; simp

example : ∃ t, (Heap.empty : Heap Slot).run (lifetime ⟨false, true, false, false⟩ [.mark, .refine, .mapBase, .refine]) =
    some t ∧ t.owned = [] :=
  C95_context_partial _ rfl rfl _ ⟨rfl, trivial⟩ rfl

/-- C95 (context, without setup): a context that was created and not set up can be destroyed, and nothing is
left. -/
theorem C95_not_setup : Leaves (create_ ++ destroy_ false false) 0 := by
  have h : (noRefs : Abs Slot).left (create_ ++ destroy_ false false) = some 0 := by decide +kernel
  obtain ⟨t, ht, hl⟩ := Abs.left_sound h 0 sound_zero
  exact ⟨t, ht, hl⟩

/-- C95 (sediment, violated): with sediment a run leaves seven references (the DMs of flow and tracers, their
four vectors and the parsers of manufactured solutions), and *every refinement leaves four more*: a program
that refines its mesh again and again runs out of memory. -/
theorem C95_sediment_violated (c : ResCfg) (hs : c.sediment = true) (n : ℕ) :
    Leaves (lifetime c (List.replicate n .refine)) (7 + 4 * n) := by
  have ho : ∀ n f, MapsAfterRefine f (List.replicate n ResOp.refine) := by
    intro n
    induction n with
    | zero => intro f; trivial
    | succ n ih => intro f; exact ih false
  have h := C95_context c (List.replicate n .refine) (ho n true)
  have e : ∀ n, unusedMarks (List.replicate n ResOp.refine) = 0 := by
    intro n
    induction n with
    | zero => rfl
    | succ n ih => rw [List.replicate_succ]; exact ih
  have e' : leftover c (List.replicate n ResOp.refine) = 7 + 4 * n := by
    rw [leftover, hs, e, List.count_replicate]; simp; omega
  rwa [e'] at h

example : Leaves (lifetime ⟨false, false, true, false⟩ (List.replicate 100 .refine)) 407 :=
  C95_sediment_violated _ rfl 100

/-- C95 (salinity, violated): with salinity alone the parsers made for a manufactured solution that the run
does not have are left. -/
theorem C95_salinity_violated (c : ResCfg) (hs : c.sediment = false) (ht : c.salinity = true) :
    Leaves (lifetime c []) 1 := by
  have h := C95_context c [] trivial
  have e : leftover c [] = 1 := by rw [leftover, hs, ht]; simp [unusedMarks, unusedMarksFrom]
  rwa [e] at h

example : Leaves (lifetime ⟨false, false, false, true⟩ []) 1 := C95_salinity_violated _ rfl rfl

/-- C95 (marks, violated): marking cells `n + 1` times before refining them leaves `n` arrays of marks, as
does marking them without refining. -/
theorem C95_marks_violated (c : ResCfg) (hs : c.sediment = false) (ht : c.salinity = false) (n : ℕ) :
    Leaves (lifetime c (List.replicate (n + 1) .mark ++ [.refine])) n ∧
      Leaves (lifetime c (List.replicate n .mark)) n := by
  have e1 : ∀ n m, unusedMarksFrom m (List.replicate (n + 1) ResOp.mark ++ [.refine]) = n + if m then 1 else 0 := by
    intro n
    induction n with
    | zero => intro m; cases m <;> rfl
    | succ n ih =>
      intro m
      rw [List.replicate_succ, List.cons_append]
      simp only [unusedMarksFrom, ih true]
      cases m <;> simp <;> omega
  have e2 : ∀ n m, unusedMarksFrom m (List.replicate n ResOp.mark) = n + if m then 1 else 0 := by
    intro n
    induction n with
    | zero => intro m; simp [unusedMarksFrom]
    | succ n ih =>
      intro m
      rw [List.replicate_succ]
      simp only [unusedMarksFrom, ih true]
      cases m <;> simp <;> omega
  have o1 : ∀ n, MapsAfterRefine true (List.replicate n ResOp.mark ++ [.refine]) := by
    intro n
    induction n with
    | zero => trivial
    | succ n ih => exact ih
  have o2 : ∀ n, MapsAfterRefine true (List.replicate n ResOp.mark) := by
    intro n
    induction n with
    | zero => trivial
    | succ n ih => exact ih
  constructor
  · have h := C95_context c (List.replicate (n + 1) .mark ++ [.refine]) (o1 _)
    have e : leftover c (List.replicate (n + 1) .mark ++ [.refine]) = n := by
      rw [leftover, hs, ht, unusedMarks, e1]; simp
    rwa [e] at h
  · have h := C95_context c (List.replicate n .mark) (o2 _)
    have e : leftover c (List.replicate n .mark) = n := by rw [leftover, hs, ht, unusedMarks, e2]; simp
    rwa [e] at h

example : Leaves (lifetime ⟨false, false, false, false⟩ [.mark, .mark, .mark, .refine]) 2 :=
  (C95_marks_violated ⟨false, false, false, false⟩ rfl rfl 2).1

/-! ## The operator -/

/-- C95 (operator): for both backends, with and without slope reconstruction, and with every kind of well
balancing that is accepted, creating and destroying the operator is well defined and everything is released,
except with libCEED and the well balancing of Bradford and Sanders (`C95_operator_violated`). -/
theorem C95_operator_partial (ceed second : Bool) (wb : Balancing) (p : List (Cmd OpSlot))
    (hp : createOp ceed wb second = some p) (h : ¬ (ceed = true ∧ wb = .bs2002)) :
    Leaves (p ++ destroyOp ceed second) 0 := by
  have key : (noRefs : Abs OpSlot).left (p ++ destroyOp ceed second) = some 0 := by
    revert hp h
    cases ceed <;> cases wb <;> cases second <;> intro hp h <;>
      first
        | exact absurd ⟨rfl, rfl⟩ h
        | (cases hp; decide +kernel)
        | (simp [createOp] at hp)
  obtain ⟨t, ht, hl⟩ := Abs.left_sound key 0 sound_zero
  exact ⟨t, ht, hl⟩

example : ∃ p, createOp true .none true = some p ∧ Leaves (p ++ destroyOp true true) 0 :=
  ⟨_, rfl, C95_operator_partial true true .none _ rfl (by decide)⟩

/-- C95 (operator, violated): with libCEED and the well balancing of Bradford and Sanders the operator for
the elevations of the water at the vertices is left, once for every operator made, that is, once more for
every refinement. -/
theorem C95_operator_violated (second : Bool) :
    ∃ p, createOp true .bs2002 second = some p ∧ Leaves (p ++ destroyOp true second) 1 := by
  have key : ∀ p, createOp true .bs2002 second = some p → (noRefs : Abs OpSlot).left (p ++ destroyOp true second) = some 1 := by
    cases second <;> intro p hp <;> cases hp <;> decide +kernel
  have hs : ∃ p, createOp true .bs2002 second = some p := by cases second <;> exact ⟨_, rfl⟩
  obtain ⟨p, hp⟩ := hs
  obtain ⟨t, ht, hl⟩ := Abs.left_sound (key p hp) 0 sound_zero
  exact ⟨p, hp, t, ht, hl⟩

/-! ## Viewers and time series -/

/-- The viewers are open after some calls (`opened`: they are open before). -/
def viewersOpen (started refined opened : Bool) : List RunCall → Bool
  | [] => opened
  | .advance fin :: os => viewersOpen true false (!fin && (opened || !started || refined)) os
  | .refine :: os => viewersOpen started true opened os

/-- The objects for output that exist when a run has (not) started and the viewers are open (or not). -/
def outShape (c : RunCfg) (started opened : Bool) : Abs RunSlot :=
  { ((noRefs.run ((if opened then openViewer c else []) ++ (if started then openSeries c else []))).getD noRefs)
    with leaks := 0 }

theorem out_advance (c : RunCfg) (started refined opened fin : Bool) (h : started = false → opened = false) :
    (outShape c started opened).takes ((if started then [] else openViewer c ++ openSeries c) ++
        (if refined then openViewer c else []) ++ (if fin then destroyViewer else []))
      (outShape c true (!fin && (opened || !started || refined))) 0 = true := by
  rcases c with ⟨a, b, d, e⟩
  revert a b d e started refined opened fin
  decide +kernel

theorem out_destroy (c : RunCfg) (started opened : Bool) :
    (outShape c started opened).left (destroySeries c started) =
      some ((if c.viewers && opened then 2 else 0) +
        (if started && c.observations then (if c.rank0 then 1 else 3) else 0)) := by
  rcases c with ⟨a, b, d, e⟩
  revert a b d e started opened
  decide +kernel

theorem out_ops (c : RunCfg) (os : List RunCall) (started refined opened : Bool) (h : started = false → opened = false)
    (s : Heap RunSlot) (hs : Sound ((outShape c started opened).add 0) s) :
    ∃ t, s.run (runOps c started refined os ++ destroySeries c (started || advances os)) = some t ∧
      t.owned.length = (if c.viewers && viewersOpen started refined opened os then 2 else 0) +
        (if (started || advances os) && c.observations then (if c.rank0 then 1 else 3) else 0) := by
  induction os generalizing started refined opened s with
  | nil =>
    obtain ⟨t, ht, hl⟩ := Abs.left_sound (out_destroy c started opened) 0 hs
    refine ⟨t, by simpa [runOps, advances] using ht, ?_⟩
    rw [hl]; simp [viewersOpen, advances]
  | cons o os ih =>
    cases o with
    | advance fin =>
      obtain ⟨t, ht, hst⟩ := Abs.takes_sound (out_advance c started refined opened fin h) 0 hs
      obtain ⟨t', ht', hl⟩ := ih true false _ (by simp) t hst
      refine ⟨t', ?_, ?_⟩
      · have e : (started || advances (.advance fin :: os)) = true := by simp [advances]
        rw [e, runOps, List.append_assoc, Heap.run_append, ht]
        simpa using ht'
      · rw [hl]; simp [viewersOpen, advances]
    | refine =>
      obtain ⟨t', ht', hl⟩ := ih started true opened h s hs
      exact ⟨t', ht', hl⟩

theorem out_start (c : RunCfg) : Sound ((outShape c false false).add 0) (Heap.empty : Heap RunSlot) := by
  rcases c with ⟨a, b, d, e⟩
  exact Sound.empty

/-- C95 (output): for every list of calls of `RDyAdvance` and `RDyPerformAMR` the handling of viewers and time
series is well defined. Two references are left if the viewers are open, one (the first process) or three (the
others) if observations are recorded. -/
theorem C95_output (c : RunCfg) (os : List RunCall) :
    Leaves (runLifetime c os)
      ((if c.viewers && viewersOpen false false false os then 2 else 0) +
        (if advances os && c.observations then (if c.rank0 then 1 else 3) else 0)) := by
  obtain ⟨t, ht, hl⟩ := out_ops c os false false false (fun _ => rfl) _ (out_start c)
  exact ⟨t, ht, hl⟩

theorem viewersOpen_end (os : List RunCall) (s r o : Bool) : viewersOpen s r o (os ++ [.advance true]) = false := by
  induction os generalizing s r o with
  | nil => simp [viewersOpen]
  | cons x os ih => cases x <;> exact ih _ _ _

/-- C95 (output, everything released): without observations, a run whose last `RDyAdvance` reaches the final
time releases everything, however often it was refined. What is missing: runs that stop earlier
(`C95_viewers_violated`) and observations (`C95_observations_violated`). -/
theorem C95_output_partial (c : RunCfg) (h : c.observations = false) (os : List RunCall) :
    Leaves (runLifetime c (os ++ [.advance true])) 0 := by
  have hh := C95_output c (os ++ [.advance true])
  rw [viewersOpen_end, h] at hh
  simpa using hh

example : Leaves (runLifetime ⟨true, true, false, true⟩ ([.advance false, .refine, .advance false] ++ [.advance true])) 0 :=
  C95_output_partial _ rfl _

theorem viewersOpen_unfinished (os : List RunCall) (h : ∀ o ∈ os, o ≠ .advance true) (s r : Bool) :
    viewersOpen s r true os = true := by
  induction os generalizing s r with
  | nil => rfl
  | cons x os ih =>
    have ih' := ih (fun o ho => h o (List.mem_cons_of_mem _ ho))
    cases x with
    | refine => exact ih' _ _
    | advance fin =>
      cases fin
      · simpa [viewersOpen] using ih' true false
      · exact absurd rfl (h _ (List.mem_cons_self ..))

/-- C95 (viewers, violated): a run that is destroyed before its final time leaves the viewer and its format. -/
theorem C95_viewers_violated (c : RunCfg) (hv : c.viewers = true) (ho : c.observations = false) (os : List RunCall)
    (h : ∀ o ∈ os, o ≠ .advance true) : Leaves (runLifetime c (.advance false :: os)) 2 := by
  have hh := C95_output c (.advance false :: os)
  have e : viewersOpen false false false (.advance false :: os) = true := by
    show viewersOpen true false true os = true
    exact viewersOpen_unfinished os h _ _
  rw [e, hv, ho] at hh
  simpa using hh

example : Leaves (runLifetime ⟨true, true, false, true⟩ [.advance false, .refine, .advance false]) 2 :=
  C95_viewers_violated _ rfl rfl _ (by decide)

/-- C95 (observations, violated): with observations a finished run leaves the vector in which they are
collected, and on all processes but the first also the vector of the sites and the scatter. -/
theorem C95_observations_violated (c : RunCfg) (h : c.observations = true) (os : List RunCall) :
    Leaves (runLifetime c (os ++ [.advance true])) (if c.rank0 then 1 else 3) := by
  have hh := C95_output c (os ++ [.advance true])
  have e : advances (os ++ [.advance true]) = true := by simp [advances]
  rw [viewersOpen_end, h, e] at hh
  simpa using hh

example : Leaves (runLifetime ⟨true, false, true, false⟩ ([.advance false] ++ [.advance true])) 3 :=
  C95_observations_violated _ rfl _

/-! ## The forcing -/

/-- The objects of the forcing after its creation. -/
def forcingShape (r : RainKind) (b : BoundaryKind) : Abs ForcingSlot :=
  (noRefs.run ([.create .forcing] ++ openRain r ++ openBoundary b)).getD noRefs

theorem forcing_start (r : RainKind) (b : BoundaryKind) :
    noRefs.takes ([.create .forcing] ++ openRain r ++ openBoundary b) (forcingShape r b) 0 = true := by
  cases r with
  | raster m => cases m <;> cases b <;> first | decide +kernel | (rename_i e; cases e <;> decide +kernel)
  | unstructured m => cases m <;> cases b <;> first | decide +kernel | (rename_i e; cases e <;> decide +kernel)
  | _ => cases b <;> first | decide +kernel | (rename_i e; cases e <;> decide +kernel)

theorem forcing_next (r : RainKind) (b : BoundaryKind) :
    (forcingShape r b).takes (nextRain r) (forcingShape r b) 0 = true ∧
      (forcingShape r b).takes (nextBoundary b) (forcingShape r b) 0 = true := by
  cases r with
  | raster m => cases m <;> cases b <;> first | decide +kernel | (rename_i e; cases e <;> decide +kernel)
  | unstructured m => cases m <;> cases b <;> first | decide +kernel | (rename_i e; cases e <;> decide +kernel)
  | _ => cases b <;> first | decide +kernel | (rename_i e; cases e <;> decide +kernel)

theorem forcing_destroy (r : RainKind) (b : BoundaryKind) :
    (forcingShape r b).left (destroyForcing r b) = some (if r = .raster true then 1 else 0) := by
  cases r with
  | raster m => cases m <;> cases b <;> first | decide +kernel | (rename_i e; cases e <;> decide +kernel)
  | unstructured m => cases m <;> cases b <;> first | decide +kernel | (rename_i e; cases e <;> decide +kernel)
  | _ => cases b <;> first | decide +kernel | (rename_i e; cases e <;> decide +kernel)

theorem takes_replicate {σ : Type} [DecidableEq σ] (a : Abs σ) (p : List (Cmd σ)) (h : a.takes p a 0 = true) (n : ℕ)
    (k : ℕ) (s : Heap σ) (hs : Sound (a.add k) s) : ∃ t, s.run (List.replicate n p).flatten = some t ∧ Sound (a.add k) t := by
  induction n generalizing s with
  | zero => exact ⟨s, rfl, hs⟩
  | succ n ih =>
    obtain ⟨t, ht, hst⟩ := Abs.takes_sound h k hs
    obtain ⟨t', ht', hst'⟩ := ih t hst
    refine ⟨t', ?_, hst'⟩
    rw [List.replicate_succ, List.flatten_cons, Heap.run_append, ht]
    exact ht'

/-- C95 (forcing): for every kind of rainfall and boundary data, however often the hourly files are changed,
the forcing is created, used and destroyed without undefined behaviour, and everything is released, except with
a raster whose map is read from a file. -/
theorem C95_forcing (r : RainKind) (b : BoundaryKind) (n m : ℕ) :
    Leaves (forcingLifetime r b n m) (if r = .raster true then 1 else 0) := by
  obtain ⟨s1, h1, g1⟩ := Abs.takes_sound (forcing_start r b) 0 sound_zero
  obtain ⟨s2, h2, g2⟩ := takes_replicate _ _ (forcing_next r b).1 n _ s1 g1
  obtain ⟨s3, h3, g3⟩ := takes_replicate _ _ (forcing_next r b).2 m _ s2 g2
  obtain ⟨s4, h4, hl⟩ := Abs.left_sound (forcing_destroy r b) _ g3
  refine ⟨s4, ?_, hl⟩
  rw [forcingLifetime, Heap.run_append, Heap.run_append, Heap.run_append, h1]
  dsimp only [Option.bind_some]
  rw [h2]
  dsimp only [Option.bind_some]
  rw [h3]
  exact h4

/-- C95 (forcing, everything released). What is missing: rasters whose map is read (`C95_map_violated`). -/
theorem C95_forcing_partial (r : RainKind) (hr : r ≠ .raster true) (b : BoundaryKind) (n m : ℕ) :
    Leaves (forcingLifetime r b n m) 0 := by
  have h := C95_forcing r b n m
  rwa [if_neg hr] at h

example : Leaves (forcingLifetime (.unstructured true) (.unstructured true) 24 48) 0 :=
  C95_forcing_partial _ (by simp) _ 24 48

/-- C95 (forcing, violated): if the map of a raster is read from a file, the map allocated before is left. -/
theorem C95_map_violated (b : BoundaryKind) (n m : ℕ) : Leaves (forcingLifetime (.raster true) b n m) 1 := by
  have h := C95_forcing (.raster true) b n m
  rwa [if_pos rfl] at h

example : Leaves (forcingLifetime (.raster true) .unset 24 0) 1 := C95_map_violated _ 24 0

end RDy
