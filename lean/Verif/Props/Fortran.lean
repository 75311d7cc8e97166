import Mathlib.Tactic
import Verif.Model.Fortran

/-!
# C99: the Fortran interface passes calls on faithfully

Specification: `FitsCall` says what a Fortran program may give for a dummy argument, `counterpart` which C function
a procedure stands for, and `Arrives` what that function must get for each argument: the same object, the same
number (the number of a boundary counted from 0 instead of 1), the address of the same variable, or the same
text without the blanks that Fortran adds.
-/

namespace RDy

/-! ## Specification -/

/-- What a Fortran program may give for a dummy argument (the compiler sees to it). -/
def FitsCall : Dummy → FVal → Prop
  | .obj, .handle _ _ => True
  | .vec, .handle _ _ => True
  | .pint, .int _ _ => True
  | .index, .int _ _ => True
  | .cint, .int _ _ => True
  | .real, .real _ _ => True
  | .bool, .bool _ _ => True
  | .arr _, .arr _ => True
  | .text, .text _ _ => True
  | _, _ => False

/-- A Fortran variable of 1024 characters that holds a name: the name, which does not end with a blank and has
no NUL in it, and blanks. -/
structure Holds (n : ℕ) (name s : Str) : Prop where
  short : name.length ≤ n
  noNul : ∀ c ∈ name, c.toNat ≠ 0
  noBlank : name.getLast? ≠ some ' '
  padded : s = name ++ List.replicate (1024 - name.length) ' '

/-- What a C function must get for an argument. -/
def Arrives : Dummy → CPar → FVal → CArg → Prop
  | .obj, .val .obj, .handle h _, x => x = .handle h
  | .obj, .ptr .obj, .handle _ l, x => x = .addr .obj l
  | .vec, .val .vec, .handle h _, x => x = .handle h
  | .vec, .ptr .vec, .handle _ l, x => x = .addr .vec l
  | .index, .val .pint, .int n _, x => x = .int (n - 1)
  | .pint, .val .pint, .int n _, x => x = .int n
  | .pint, .ptr .pint, .int _ l, x => x = .addr .pint l
  | .cint, .val .cint, .int n _, x => x = .int n
  | .cint, .ptr .cint, .int _ l, x => x = .addr .cint l
  | .real, .val .real, .real r _, x => x = .real r
  | .real, .ptr .real, .real _ l, x => x = .addr .real l
  | .arr k, .ptr k', .arr l, x => k = k' ∧ x = .addr k' l
  | .text, .str, .text s _, x => ∃ t, x = .text t ∧ ∀ name, Holds 1023 name s → t = name
  | .text, .ptr .char, .text _ l, x => x = .addr .char l
  | _, _, _, _ => False

/-- The C function that a procedure of the module stands for: the one of the same name, except that three have
a variant for Fortran. -/
def counterpart : FProc → CFun
  | .getVersion => .getVersion
  | .getBuildConfiguration => .getBuildConfigurationF90
  | .init => .initFortran
  | .finalize => .finalize
  | .initialized => .initialized
  | .create => .createF90
  | .setLogFile => .setLogFile
  | .setup => .setup
  | .mmsSetup => .mmsSetup
  | .mmsComputeSolution => .mmsComputeSolution
  | .mmsEnforceBoundaryConditions => .mmsEnforceBoundaryConditions
  | .mmsComputeSourceTerms => .mmsComputeSourceTerms
  | .mmsUpdateMaterialProperties => .mmsUpdateMaterialProperties
  | .mmsComputeErrorNorms => .mmsComputeErrorNorms
  | .mmsEstimateConvergenceRates => .mmsEstimateConvergenceRates
  | .mmsRun => .mmsRun
  | .getNumGlobalCells => .getNumGlobalCells
  | .getNumOwnedCells => .getNumOwnedCells
  | .getNumBoundaryConditions => .getNumBoundaryConditions
  | .getNumBoundaryEdges => .getNumBoundaryEdges
  | .setFlowDirichletBoundaryValues => .setFlowDirichletBoundaryValues
  | .getBoundaryConditionFlowType => .getBoundaryConditionFlowType
  | .getTimeUnit => .getTimeUnit
  | .getTime => .getTime
  | .getTimeStep => .getTimeStep
  | .convertTime => .convertTime
  | .getCouplingInterval => .getCouplingInterval
  | .setCouplingInterval => .setCouplingInterval
  | .getStep => .getStep
  | .getOwnedCellHeights => .getOwnedCellHeights
  | .getOwnedCellXMomenta => .getOwnedCellXMomenta
  | .getOwnedCellYMomenta => .getOwnedCellYMomenta
  | .getOwnedCellXCentroids => .getOwnedCellXCentroids
  | .getOwnedCellYCentroids => .getOwnedCellYCentroids
  | .getOwnedCellZCentroids => .getOwnedCellZCentroids
  | .getOwnedCellAreas => .getOwnedCellAreas
  | .getOwnedCellNaturalIDs => .getOwnedCellNaturalIDs
  | .getBoundaryEdgeXCentroids => .getBoundaryEdgeXCentroids
  | .getBoundaryEdgeYCentroids => .getBoundaryEdgeYCentroids
  | .getBoundaryEdgeZCentroids => .getBoundaryEdgeZCentroids
  | .getBoundaryCellXCentroids => .getBoundaryCellXCentroids
  | .getBoundaryCellYCentroids => .getBoundaryCellYCentroids
  | .getBoundaryCellZCentroids => .getBoundaryCellZCentroids
  | .getBoundaryCellNaturalIDs => .getBoundaryCellNaturalIDs
  | .setDomainWaterSource => .setDomainWaterSource
  | .setRegionalWaterSource => .setRegionalWaterSource
  | .setDomainXMomentumSource => .setDomainXMomentumSource
  | .setDomainYMomentumSource => .setDomainYMomentumSource
  | .setDomainManningsN => .setDomainManningsN
  | .setInitialConditions => .setInitialConditions
  | .createPrognosticVec => .createPrognosticVec
  | .createOneDOFGlobalVec => .createOneDOFGlobalVec
  | .readOneDOFLocalVecFromBinaryFile => .readOneDOFLocalVecFromBinaryFile
  | .readOneDOFGlobalVecFromBinaryFile => .readOneDOFGlobalVecFromBinaryFile
  | .writeOneDOFGlobalVecToBinaryFile => .writeOneDOFGlobalVecToBinaryFile
  | .writeHDF5CheckpointFile => .writeHDF5CheckpointFile
  | .readHDF5CheckpointFile => .readHDF5CheckpointFile
  | .advance => .advance
  | .finished => .finished
  | .restarted => .restarted
  | .destroy => .destroy

/-- A call is passed on faithfully: the C function of the same name gets all the arguments in the same order,
each of them in the form that its prototype asks for. -/
def Faithful (wide : Bool) (old : Str) (p : FProc) (args : List FVal) : Prop :=
  ∃ xs, p.run wide old args = .call (counterpart p) xs ∧ xs.length = (counterpart p).params.length ∧
    xs.length = args.length ∧
    ∀ (i : ℕ) (d : Dummy) (c : CPar) (v : FVal) (x : CArg), p.dummies[i]? = some d →
      (counterpart p).params[i]? = some c → args[i]? = some v → xs[i]? = some x → Arrives d c v x

/-! ## Texts -/

theorem dropWhile_blanks (n : ℕ) (s : Str) :
    (List.replicate n ' ' ++ s).dropWhile (· == ' ') = s.dropWhile (· == ' ') := by
  induction n with
  | zero => simp
  | succ n ih => rw [List.replicate_succ, List.cons_append, List.dropWhile_cons_of_pos (by simp), ih]

theorem lenTrim_padded (name : Str) (n : ℕ) (h : name.getLast? ≠ some ' ') :
    lenTrim (name ++ List.replicate n ' ') = name.length := by
  unfold lenTrim
  rw [List.reverse_append, List.reverse_replicate, dropWhile_blanks]
  rcases List.eq_nil_or_concat' name with rfl | ⟨l, c, rfl⟩
  · rfl
  · rw [List.reverse_append, List.reverse_cons, List.reverse_nil, List.nil_append, List.singleton_append,
      List.dropWhile_cons_of_neg]
    · simp
    · simp only [List.getLast?_append, List.getLast?_singleton, Option.some_or, ne_eq,
        Option.some.injEq] at h
      simpa using h

theorem cString_append (s t : Str) (h : ∀ c ∈ s, c.toNat ≠ 0) :
    cString (s ++ Char.ofNat 0 :: t) = some s := by
  induction s with
  | nil => unfold cString; rw [List.nil_append]; dsimp only; rw [if_pos (by decide)]
  | cons c s ih =>
    rw [List.cons_append]; unfold cString
    rw [if_neg (h c (by simp)), ih fun x hx => h x (by simp [hx])]; rfl

theorem cString_isSome (s t : Str) : (cString (s ++ Char.ofNat 0 :: t)).isSome := by
  induction s with
  | nil => unfold cString; rw [List.nil_append]; dsimp only; rw [if_pos (by decide)]; rfl
  | cons c s ih =>
    rw [List.cons_append]; unfold cString
    by_cases hc : c.toNat = 0
    · rw [if_pos hc]; rfl
    · rw [if_neg hc, Option.isSome_map]; exact ih

/-- **C99 (names).** A name of at most 1023 characters, held in a Fortran variable of 1024 characters, arrives in
C as the same name, whatever was in the memory that the wrapper uses for it. -/
theorem C99_text (old name s : Str) (h : Holds 1023 name s) : cString (textBuffer old s) = some name := by
  have hl := h.short
  unfold textBuffer
  rw [h.padded, lenTrim_padded name _ h.noBlank, min_eq_right hl, List.take_left]
  exact cString_append _ _ h.noNul

/-- The name of a configuration file, with garbage in the buffer. -/
example : Holds 1023 "ex2b.yaml".toList ("ex2b.yaml".toList ++ List.replicate 1015 ' ') ∧
    cString (textBuffer (List.replicate 1024 'z') ("ex2b.yaml".toList ++ List.replicate 1015 ' ')) =
      some "ex2b.yaml".toList := by
  have h : Holds 1023 "ex2b.yaml".toList ("ex2b.yaml".toList ++ List.replicate 1015 ' ') :=
    ⟨by decide +kernel, by decide +kernel, by decide +kernel, rfl⟩
  exact ⟨h, C99_text _ _ _ h⟩

/-- **C99 (long names, violated).** The variable has room for names of 1024 characters, but C gets such a name
without its last character (`/repo/src/f90-mod/rdycore.F90:513`): another file. -/
theorem C99_text_violated (old name s : Str) (h : Holds 1024 name s) (hl : name.length = 1024) :
    ∃ t, cString (textBuffer old s) = some t ∧ t = name.take 1023 ∧ t ≠ name := by
  refine ⟨name.take 1023, ?_, rfl, ?_⟩
  · unfold textBuffer
    rw [h.padded, lenTrim_padded name _ h.noBlank, hl]
    have : (name ++ List.replicate (1024 - 1024) ' ').take (min 1023 1024) = name.take 1023 := by simp
    rw [this]
    exact cString_append _ _ fun c hc => h.noNul c (List.mem_of_mem_take hc)
  · intro e
    have := congrArg List.length e
    rw [List.length_take, hl] at this
    omega

/-- Such a name. -/
example : Holds 1024 (List.replicate 1024 'a') (List.replicate 1024 'a') ∧
    (List.replicate 1024 'a').length = 1024 := by
  have hl : (List.replicate 1024 'a').length = 1024 := List.length_replicate
  refine ⟨⟨hl.le, ?_, ?_, ?_⟩, hl⟩
  rotate_right
  · rw [hl, Nat.sub_self, List.replicate_zero, List.append_nil]
  · intro c hc
    rw [List.eq_of_mem_replicate hc]; decide
  · rw [List.getLast?_replicate, if_neg (by decide)]; decide

/-! ## Calls -/

/-- The agreement of a dummy argument, what the wrapper passes for it, the interface and the C prototype. -/
def agrees (i : ℕ) : Dummy → Actual → FKind × Passing → CPar → Bool
  | .obj, .handle j, (.addr, .value), .val .obj => j == i
  | .obj, .handle j, (.addr, .ref), .ptr .obj => j == i
  | .vec, .handle j, (.vec, .value), .val .vec => j == i
  | .vec, .handle j, (.vec, .ref), .ptr .vec => j == i
  | .pint, .arg j, (.pint, .value), .val .pint => j == i
  | .pint, .arg j, (.pint, .ref), .ptr .pint => j == i
  | .index, .pred j, (.pint, .value), .val .pint => j == i
  | .cint, .arg j, (.cint, .value), .val .cint => j == i
  | .cint, .arg j, (.cint, .ref), .ptr .cint => j == i
  | .real, .arg j, (.real, .value), .val .real => j == i
  | .real, .arg j, (.real, .ref), .ptr .real => j == i
  | .arr k, .loc j, (.addr, .value), .ptr k' => j == i && k == k'
  | .text, .text j, (.addr, .value), .str => j == i
  | .text, .loc j, (.addr, .value), .ptr .char => j == i
  | _, _, _, _ => false

/-- The agreement of all arguments, from position `i` on. -/
def agreesAll (i : ℕ) : List Dummy → List Actual → List (FKind × Passing) → List CPar → Bool
  | [], [], [], [] => true
  | d :: ds, a :: as, b :: bs, c :: cs => agrees i d a b c && agreesAll (i + 1) ds as bs cs
  | _, _, _, _ => false

theorem CKind.fits_self (wide : Bool) (k : CKind) : k.fits wide k = true := by
  unfold CKind.fits; simp

/-- An argument for which everything agrees arrives. -/
theorem agrees_sound (wide : Bool) (old : Str) (ds : List Dummy) (args : List FVal) (i : ℕ) (d : Dummy)
    (a : Actual) (b : FKind × Passing) (c : CPar) (v : FVal) (h : agrees i d a b c = true)
    (hd : ds[i]? = some d) (hv : args[i]? = some v) (hf : FitsCall d v) :
    ∃ x, ((a.eval old ds args).bind (pass wide b)).bind (receive wide c) = some x ∧ Arrives d c v x := by
  unfold agrees at h
  split at h
  case h_12 k j k' =>
    simp only [Bool.and_eq_true, beq_iff_eq] at h
    obtain ⟨rfl, rfl⟩ := h
    cases v <;> simp only [FitsCall] at hf
    case arr l =>
      refine ⟨.addr k l, ?_, rfl, rfl⟩
      simp only [Actual.eval, hd, hv, Option.bind_some, pass, receive, CKind.fits_self, if_true]
  case h_13 j =>
    simp only [beq_iff_eq] at h
    subst h
    cases v <;> simp only [FitsCall] at hf
    case text s l =>
      obtain ⟨t, ht⟩ := Option.isSome_iff_exists.mp
        (cString_isSome (s.take (min 1023 (lenTrim s))) (old.drop (min 1023 (lenTrim s) + 1)))
      have ht' : cString (textBuffer old s) = some t := ht
      refine ⟨.text t, ?_, t, rfl, ?_⟩
      · simp only [Actual.eval, hd, hv, ht', Option.map_some, Option.bind_some, pass, receive]
      · intro name hn
        have := C99_text old name s hn
        rw [ht'] at this
        exact Option.some.inj this
  case h_15 => cases h
  all_goals
    simp only [beq_iff_eq] at h
    subst h
    cases v <;> simp only [FitsCall] at hf
    refine ⟨_, ?_, rfl⟩
    cases wide <;> simp only [Actual.eval, hd, hv, Option.bind_some, pass, receive] <;> rfl

/-- A call for which everything agrees arrives. -/
theorem deliver_sound (wide : Bool) (old : Str) (ds : List Dummy) (args : List FVal)
    (hfit : List.Forall₂ FitsCall ds args) :
    ∀ (ds' : List Dummy) (as : List Actual) (bs : List (FKind × Passing)) (cs : List CPar) (k : ℕ),
      ds' = ds.drop k → agreesAll k ds' as bs cs = true →
      ∃ xs, deliver wide old ds args as bs cs = some xs ∧ xs.length = cs.length ∧ xs.length = ds'.length ∧
        ∀ (i : ℕ) (d : Dummy) (c : CPar) (v : FVal) (x : CArg), ds[k + i]? = some d → cs[i]? = some c →
          args[k + i]? = some v → xs[i]? = some x → Arrives d c v x := by
  intro ds'
  induction ds' with
  | nil =>
    intro as bs cs k _ h
    cases as <;> cases bs <;> cases cs <;> simp only [agreesAll, Bool.false_eq_true] at h
    exact ⟨[], rfl, rfl, rfl, by simp⟩
  | cons d ds' ih =>
    intro as bs cs k hk h
    cases as <;> cases bs <;> cases cs <;> simp only [agreesAll, Bool.false_eq_true] at h
    case cons.cons.cons a as b bs c cs =>
      rw [Bool.and_eq_true] at h
      have hd : ds[k]? = some d := by
        have : (ds.drop k)[0]? = some d := by rw [← hk]; rfl
        rwa [List.getElem?_drop, add_zero] at this
      have hk' : ds' = ds.drop (k + 1) := by
        rw [← List.tail_drop, ← hk]; rfl
      have hklt : k < ds.length := by
        by_contra hn
        rw [List.getElem?_eq_none (by omega)] at hd
        cases hd
      obtain ⟨v, hv⟩ : ∃ v, args[k]? = some v := by
        have : k < args.length := by rw [← hfit.length_eq]; exact hklt
        exact ⟨args[k], List.getElem?_eq_getElem this⟩
      have hf : FitsCall d v := by
        rw [List.forall₂_iff_get] at hfit
        have h2 : k < args.length := by rw [← hfit.1]; exact hklt
        have := hfit.2 k hklt h2
        rw [List.getElem?_eq_getElem hklt] at hd
        rw [List.getElem?_eq_getElem h2] at hv
        simpa [Option.some.inj hd, Option.some.inj hv] using this
      obtain ⟨x, hx, hax⟩ := agrees_sound wide old ds args k d a b c v h.1 hd hv hf
      obtain ⟨xs, hxs, hl, hl', hA⟩ := ih as bs cs (k + 1) hk' h.2
      refine ⟨x :: xs, ?_, by simp [hl], by simp [hl'], ?_⟩
      · unfold deliver
        rw [hx, Option.bind_some, hxs, Option.map_some]
      · intro i d' c' v' x' hd' hc' hv' hx'
        cases i with
        | zero =>
          rw [add_zero, hd] at hd'
          rw [add_zero, hv] at hv'
          rw [List.getElem?_cons_zero] at hc' hx'
          rw [← Option.some.inj hd', ← Option.some.inj hv', ← Option.some.inj hc', ← Option.some.inj hx']
          exact hax
        | succ i =>
          rw [List.getElem?_cons_succ] at hc' hx'
          exact hA i d' c' v' x' (by rw [← hd']; congr 1; omega) hc' (by rw [← hv']; congr 1; omega) hx'

/-- **C99 (calls, partial).** Every procedure of the module passes its call on faithfully, in both builds of PETSc
(integers of 32 and of 64 bits), except two: `RDyGetVersion` and `RDyMMSEstimateConvergenceRates`.  Missing: the
status that comes back. -/
theorem C99_faithful_partial (wide : Bool) (old : Str) (p : FProc) (args : List FVal)
    (hf : List.Forall₂ FitsCall p.dummies args) (h1 : p ≠ .getVersion) (h2 : p ≠ .mmsEstimateConvergenceRates) :
    Faithful wide old p args := by
  have key : ∃ as bs, p.call = some (as, counterpart p, bs) ∧
      agreesAll 0 p.dummies as bs (counterpart p).params = true := by
    cases p <;> first | exact absurd rfl h1 | exact absurd rfl h2 | exact ⟨_, _, rfl, by decide +kernel⟩
  obtain ⟨as, bs, hc, ha⟩ := key
  obtain ⟨xs, hx, hl, hl', hA⟩ := deliver_sound wide old p.dummies args hf p.dummies as bs
    (counterpart p).params 0 rfl ha
  refine ⟨xs, ?_, hl, by rw [hl', hf.length_eq], ?_⟩
  · unfold FProc.run
    rw [hc]; dsimp only
    rw [hx]
  · intro i d c v x hd hc hv hx
    exact hA i d c v x (by rwa [zero_add]) hc (by rwa [zero_add]) hx

/-- Setting values on the second boundary: C gets the number 1. -/
example (wide : Bool) (old : Str) :
    List.Forall₂ FitsCall (FProc.dummies .setFlowDirichletBoundaryValues)
      [.handle 77 1, .int 2 2, .int 5 3, .int 3 4, .arr 1000] ∧
    FProc.run wide old .setFlowDirichletBoundaryValues
      [.handle 77 1, .int 2 2, .int 5 3, .int 3 4, .arr 1000] =
      .call .setFlowDirichletBoundaryValues [.handle 77, .int 1, .int 5, .int 3, .addr .real 1000] := by
  refine ⟨by simp [FProc.dummies, FitsCall], ?_⟩
  cases wide <;> rfl

/-- **C99 (version, violated).** `RDyGetVersion` of the module calls nothing
(`/repo/src/f90-mod/rdycore.F90:467-472`): the numbers of the version and the status stay what they were.  The
interface it would use is wrong for 64-bit integers: C writes three `int` where the interface has three
`PetscInt`. -/
theorem C99_version_violated (old : Str) :
    (∀ wide args, FProc.run wide old .getVersion args = .nothing ∧ ¬ Faithful wide old .getVersion args) ∧
    ∀ args : List FVal, List.Forall₂ FitsCall (FProc.dummies .getVersion) args →
      deliver true old (FProc.dummies .getVersion) args [.arg 0, .arg 1, .arg 2, .arg 3] versionInterface
        (CFun.params .getVersion) = none := by
  refine ⟨fun wide args => ⟨rfl, ?_⟩, ?_⟩
  · rintro ⟨xs, h, -⟩
    cases h
  · intro args h
    simp only [FProc.dummies] at h
    obtain ⟨a, args', ha, -, rfl⟩ := List.forall₂_cons_left_iff.mp h
    cases a <;> simp only [FitsCall] at ha
    rfl

/-- Asking for the version. -/
example : List.Forall₂ FitsCall (FProc.dummies .getVersion) [.int 0 1, .int 0 2, .int 0 3, .bool false 4] ∧
    FProc.run false [] .getVersion [.int 0 1, .int 0 2, .int 0 3, .bool false 4] = .nothing :=
  ⟨by simp [FProc.dummies, FitsCall], ((C99_version_violated []).1 _ _).1⟩

/-- **C99 (convergence rates, violated).** `RDyMMSEstimateConvergenceRates` of the module passes five arguments
(`/repo/src/f90-mod/rdycore.F90:584-593`) to a C function with four: the number of refinements is taken for the
address of the first array. -/
theorem C99_convergence_violated (wide : Bool) (old : Str) (args : List FVal) :
    FProc.run wide old .mmsEstimateConvergenceRates args = .mismatch ∧
      ¬ Faithful wide old .mmsEstimateConvergenceRates args := by
  have h : FProc.run wide old .mmsEstimateConvergenceRates args = .mismatch := by
    have hd : ∀ ds, deliver wide old ds args [.handle 0, .arg 1, .loc 2, .loc 3, .loc 4]
        [(.addr, .value), (.pint, .value), (.addr, .value), (.addr, .value), (.addr, .value)]
        [.val .obj, .ptr .real, .ptr .real, .ptr .real] = none := by
      intro ds
      simp only [deliver, Option.map_none, Option.bind_fun_none]
    unfold FProc.run
    simp only [FProc.call, CFun.params, hd]
  refine ⟨h, ?_⟩
  rintro ⟨xs, hx, -⟩
  rw [h] at hx
  cases hx

/-- Asking for the rates of three refinements. -/
example : List.Forall₂ FitsCall (FProc.dummies .mmsEstimateConvergenceRates)
      [.handle 77 1, .int 3 2, .arr 100, .arr 200, .arr 300] ∧
    FProc.run false [] .mmsEstimateConvergenceRates [.handle 77 1, .int 3 2, .arr 100, .arr 200, .arr 300] =
      .mismatch :=
  ⟨by simp [FProc.dummies, FitsCall], (C99_convergence_violated _ _ _).1⟩

/-- **C99 (boundaries).** Whatever a Fortran program asks of boundary `n` (counted from 1) is asked of boundary
`n - 1` in C (counted from 0): as `n` runs over the boundaries of Fortran, C gets each of its boundaries exactly
once. -/
theorem C99_boundaries (wide : Bool) (old : Str) (p : FProc) (num : ℕ) (i : ℕ) (args : List FVal)
    (hi : p.dummies[i]? = some .index) (hf : List.Forall₂ FitsCall p.dummies args) :
    ∀ k : ℕ, k < num → ∃! n : ℤ, 1 ≤ n ∧ n ≤ num ∧
      ∃ (l : ℤ × ℕ) (xs : List CArg), args[i]? = some (.int l.1 l.2) ∧
        p.run wide old (args.set i (.int n l.2)) = .call (counterpart p) xs ∧ xs[i]? = some (.int k) := by
  intro k hk
  have hne1 : p ≠ .getVersion := by
    rintro rfl
    have := List.mem_of_getElem? hi
    simp [FProc.dummies] at this
  have hne2 : p ≠ .mmsEstimateConvergenceRates := by
    rintro rfl
    have := List.mem_of_getElem? hi
    simp [FProc.dummies] at this
  have hilt : i < p.dummies.length := by
    by_contra hn
    rw [List.getElem?_eq_none (by omega)] at hi
    cases hi
  have hfi := (List.forall₂_iff_get.mp hf).2 i hilt (by rw [← hf.length_eq]; exact hilt)
  have hia : i < args.length := by rw [← hf.length_eq]; exact hilt
  have hdi : p.dummies[i] = .index := by
    rw [List.getElem?_eq_getElem hilt] at hi
    exact Option.some.inj hi
  obtain ⟨m, l, hml⟩ : ∃ m l, args[i] = .int m l := by
    simp only [List.get_eq_getElem, hdi] at hfi
    cases hv : args[i] with
    | int m l => exact ⟨m, l, rfl⟩
    | _ => rw [hv] at hfi; simp only [FitsCall] at hfi
  have hargs : args[i]? = some (.int m l) := by rw [List.getElem?_eq_getElem hia, hml]
  have hset : ∀ n : ℤ, ∃ xs, p.run wide old (args.set i (.int n l)) = .call (counterpart p) xs ∧
      xs[i]? = some (.int (n - 1)) := by
    intro n
    have hf' : List.Forall₂ FitsCall p.dummies (args.set i (.int n l)) := by
      rw [List.forall₂_iff_get]
      refine ⟨by rw [List.length_set]; exact hf.length_eq, ?_⟩
      intro j h1 h2
      simp only [List.get_eq_getElem]
      by_cases hj : i = j
      · subst hj
        rw [List.getElem_set_self, hdi]; trivial
      · rw [List.getElem_set_ne hj]
        have h3 : j < args.length := by rwa [List.length_set] at h2
        exact (List.forall₂_iff_get.mp hf).2 j h1 h3
    obtain ⟨xs, hx, hl, hl', hA⟩ := C99_faithful_partial wide old p _ hf' hne1 hne2
    refine ⟨xs, hx, ?_⟩
    have hxi : i < xs.length := by rw [hl', List.length_set]; exact hia
    have hci : i < (counterpart p).params.length := by rw [← hl]; exact hxi
    have := hA i .index _ (.int n l) xs[i] hi (List.getElem?_eq_getElem hci)
      (by rw [List.getElem?_set_self hia]) (List.getElem?_eq_getElem hxi)
    rw [List.getElem?_eq_getElem hxi]
    cases hcp : (counterpart p).params[i] with
    | val kk => rw [hcp] at this; cases kk <;> simp only [Arrives] at this; rw [this]
    | ptr kk => rw [hcp] at this; simp only [Arrives] at this
    | str => rw [hcp] at this; simp only [Arrives] at this
  refine ⟨(k : ℤ) + 1, ⟨by omega, by omega, (m, l), ?_⟩, ?_⟩
  · obtain ⟨xs, h1, h2⟩ := hset ((k : ℤ) + 1)
    exact ⟨xs, hargs, h1, by rw [h2]; congr 2; omega⟩
  · rintro n ⟨-, -, ⟨m', l'⟩, xs, ha, h1, h2⟩
    rw [hargs] at ha
    simp only [Option.some.injEq, FVal.int.injEq] at ha
    obtain ⟨rfl, rfl⟩ := ha
    obtain ⟨ys, h3, h4⟩ := hset n
    rw [h3] at h1
    simp only [Outcome.call.injEq, true_and] at h1
    rw [← h1, h4] at h2
    simp only [Option.some.injEq, CArg.int.injEq] at h2
    omega

/-- The number of edges of a boundary. -/
example : (FProc.dummies .getNumBoundaryEdges)[1]? = some .index ∧
    List.Forall₂ FitsCall (FProc.dummies .getNumBoundaryEdges) [.handle 7 1, .int 3 2, .int 0 3] ∧
    FProc.run true [] .getNumBoundaryEdges [.handle 7 1, .int 3 2, .int 0 3] =
      .call .getNumBoundaryEdges [.handle 7, .int 2, .addr .pint 3] :=
  ⟨rfl, by simp [FProc.dummies, FitsCall], rfl⟩

/-! ## Values that come back -/

/-- **C99 (time units).** The time units of the module have the values of those of the C library. -/
theorem C99_time_units (name : Str) (n : ℤ) : (name, n) ∈ fTimeUnits ↔ (name, n) ∈ cTimeUnits := by
  have h : fTimeUnits = cTimeUnits := by decide +kernel
  rw [h]

/-- Hours. -/
example : ("HOURS".toList, 3) ∈ cTimeUnits := by decide +kernel

/-- **C99 (build configuration, violated).** The variable that `RDyGetBuildConfiguration` fills holds the text and
NULs (`/repo/src/rdycore.c:60`), not the text and blanks as a Fortran variable should: `trim`, as in
`/repo/driver/main.F90:1493`, leaves all 1024 characters. -/
theorem C99_build_configuration_violated (s : Str) (h : s.length < 1024) :
    ¬ Holds 1023 s (buildConfiguration s) ∧ lenTrim (buildConfiguration s) = 1024 := by
  have e : buildConfiguration s = s ++ List.replicate (1024 - s.length) (Char.ofNat 0) := by
    unfold buildConfiguration strncpy
    rw [List.take_of_length_le (by omega)]
  have hrep : List.replicate (1024 - s.length) (Char.ofNat 0) =
      List.replicate (1023 - s.length) (Char.ofNat 0) ++ [Char.ofNat 0] := by
    rw [← List.replicate_succ', show 1023 - s.length + 1 = 1024 - s.length by omega]
  have hlast : (buildConfiguration s).getLast? = some (Char.ofNat 0) := by
    rw [e, hrep, ← List.append_assoc, List.getLast?_append, List.getLast?_singleton, Option.some_or]
  constructor
  · intro hh
    have hr : List.replicate (1024 - s.length) ' ' = List.replicate (1023 - s.length) ' ' ++ [' '] := by
      rw [← List.replicate_succ', show 1023 - s.length + 1 = 1024 - s.length by omega]
    rw [hh.padded, hr, ← List.append_assoc, List.getLast?_append, List.getLast?_singleton,
      Option.some_or] at hlast
    exact absurd (Option.some.inj hlast) (by decide)
  · have := lenTrim_padded (buildConfiguration s) 0 (by rw [hlast]; decide)
    rw [List.replicate_zero, List.append_nil] at this
    rw [this, e, List.length_append, List.length_replicate]
    omega

/-- The beginning of the text. -/
example : ("RDycore version 0.0.0 (git hash unknown)".toList).length < 1024 := by decide

/-- **C99 (restarted, partial).** `RDyRestarted` is zero exactly if no restart file is given; it is
`PETSC_TRUE` (1) otherwise if `PetscBool` is the type `bool`.  Missing: `PetscBool` as an enumeration. -/
theorem C99_restarted_partial (file : Str) (h : ∀ c ∈ file, c.toNat ≠ 0) :
    (∀ t, restarted t file = 0 ↔ file = []) ∧ (file ≠ [] → restarted .bool file = 1) := by
  cases file with
  | nil => exact ⟨fun t => by simp [restarted], fun h => absurd rfl h⟩
  | cons c s =>
    have hc := h c (by simp)
    refine ⟨fun t => ?_, fun _ => ?_⟩
    · cases t
      · simp only [restarted, reduceCtorEq, iff_false]; exact hc
      · simp only [restarted, if_neg hc, one_ne_zero, reduceCtorEq]
    · simp only [restarted, if_neg hc]

/-- A checkpoint file. -/
example : (∀ c ∈ "run-30.h5".toList, c.toNat ≠ 0) ∧ restarted .bool "run-30.h5".toList = 1 := by
  have h : ∀ c ∈ "run-30.h5".toList, c.toNat ≠ 0 := by decide
  exact ⟨h, (C99_restarted_partial _ h).2 (by decide)⟩

/-- **C99 (restarted, violated).** If `PetscBool` is an enumeration, `RDyRestarted` of a restarted run is not
`PETSC_TRUE` but the code of the first letter of the file name (`/repo/src/rdycore.c:186`): a comparison with
`PETSC_TRUE` fails. -/
theorem C99_restarted_violated (c : Char) (s : Str) (h : 32 ≤ c.toNat) :
    restarted .enumeration (c :: s) = c.toNat ∧ restarted .enumeration (c :: s) ≠ 1 := by
  refine ⟨rfl, ?_⟩
  have : restarted .enumeration (c :: s) = c.toNat := rfl
  omega

/-- The file of the example above: the code of "r". -/
example : 32 ≤ 'r'.toNat ∧ restarted .enumeration "run-30.h5".toList = 114 := by decide

/-- **C99 (initialization).** `RDyInit` of the module does what `RDyInit` of the C library does once PETSc is
initialized, and nothing if that fails. -/
theorem C99_init (p : Proc) : p.initFromFortran true = p.init ∧ p.initFromFortran false = some p := by
  unfold Proc.initFromFortran
  refine ⟨?_, by simp⟩
  cases h : p.initialized with
  | true => simp [Proc.init, h]
  | false => simp

/-- The first call in a process. -/
example : ∃ q, Proc.fresh.initFromFortran true = some q ∧ q.initialized = true := by
  refine ⟨_, rfl, rfl⟩

end RDy
