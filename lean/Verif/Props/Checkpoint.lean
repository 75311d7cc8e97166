import Verif.Model.Checkpoint
import Verif.Props.Output

/-!
Properties of checkpoints (C29, C30).
-/

namespace RDy

private theorem contains_iff (sub name : Str) : contains sub name = true ↔ sub <:+: name := by
  unfold contains
  rw [List.any_eq_true]
  constructor
  · rintro ⟨t, ht, hp⟩
    exact (List.isPrefixOf_iff_prefix.mp hp).isInfix.trans (List.mem_tails _ _ |>.mp ht).isInfix
  · rintro ⟨a, b, h⟩
    exact ⟨sub ++ b, (List.mem_tails _ _).mpr ⟨a, by rw [← h, List.append_assoc]⟩,
      List.isPrefixOf_iff_prefix.mpr ⟨b, rfl⟩⟩

/-- An occurrence of `c :: rest` in `a ++ x :: b` does not straddle the boundary if `x` is not in
`rest`. -/
private theorem infix_append (c : Char) (rest a b : Str) (x : Char) (hx : x ∉ rest)
    (h : (c :: rest) <:+: a ++ x :: b) : (c :: rest) <:+: a ∨ (c :: rest) <:+: x :: b := by
  induction a with
  | nil => exact Or.inr h
  | cons y a ih =>
    rw [List.cons_append, List.infix_cons_iff] at h
    rcases h with h | h
    · left
      rw [List.cons_prefix_cons] at h
      obtain ⟨rfl, h⟩ := h
      have ha : a <+: a ++ x :: b := List.prefix_append _ _
      rcases List.prefix_or_prefix_of_prefix h ha with h1 | ⟨r, h1⟩
      · exact (List.cons_prefix_cons.mpr ⟨rfl, h1⟩).isInfix
      · cases r with
        | nil =>
          rw [List.append_nil] at h1
          subst h1
          exact List.infix_rfl
        | cons z r =>
          obtain ⟨t, h⟩ := h
          rw [← h1, List.append_assoc] at h
          have := List.append_cancel_left h
          rw [List.cons_append] at this
          injection this with h2 _
          subst h2
          exact absurd (by rw [← h1]; simp) hx
    · rcases ih h with h | h
      · left; exact h.trans (List.suffix_cons y a).isInfix
      · right; exact h

private theorem name_has_ext (base : Str) (fmt : CkFormat) : contains fmt.ext (base ++ fmt.ext) = true :=
  (contains_iff _ _).mpr ⟨base, [], by simp⟩

private theorem bin_in (base : Str) : contains extBin (base ++ CkFormat.binary.ext) = true :=
  name_has_ext base .binary

private theorem h5_in (base : Str) : contains extH5 (base ++ CkFormat.hdf5.ext) = true :=
  name_has_ext base .hdf5

private theorem h5_not_in_bin (base : Str) (h : contains extH5 base = false) :
    contains extH5 (base ++ extBin) = false := by
  by_contra hc
  rw [Bool.not_eq_false, contains_iff] at hc
  rcases infix_append '.' ['h', '5'] base ['b', 'i', 'n'] '.' (by decide) hc with h1 | h1
  · have h2 := (contains_iff _ _).mpr h1; exact absurd (h.symm.trans h2) (by simp)
  · have := (contains_iff _ _).mpr h1; revert this; decide

private theorem bin_not_in_h5 (base : Str) (h : contains extBin base = false) :
    contains extBin (base ++ extH5) = false := by
  by_contra hc
  rw [Bool.not_eq_false, contains_iff] at hc
  rcases infix_append '.' ['b', 'i', 'n'] base ['h', '5'] '.' (by decide) hc with h1 | h1
  · have h2 := (contains_iff _ _).mpr h1; exact absurd (h.symm.trans h2) (by simp)
  · have := (contains_iff _ _).mpr h1; revert this; decide

/-- Specification: the solution as a function of the mesh file's numbering. -/
def CkState.natural (s : CkState) (n : ℕ) : ℝ := s.sol (s.order.symm n)

/-- The name has no other format's extension in it. -/
def CkFormat.nameOk (fmt : CkFormat) (base : Str) : Prop :=
  match fmt with
  | .binary => contains extH5 base = false
  | .hdf5 => contains extBin base = false

private theorem read_ok (reinit : Bool) (s r : CkState) (fmt : CkFormat) (base : Str)
    (hn : fmt.nameOk base) :
    ckRead reinit (base ++ fmt.ext) (ckWrite s fmt) r
      = loadSolution (ckWrite s fmt)
        (match fmt with
          | .binary => consumeMetadata reinit (ckWrite s fmt) r
          | .hdf5 => readHdf5Metadata reinit (ckWrite s fmt) r) := by
  unfold ckRead
  cases fmt with
  | binary =>
    rw [if_pos (bin_in base), if_neg (by simp [ckWrite]),
      if_neg (by
        rw [show CkFormat.binary.ext = extBin from rfl, h5_not_in_bin base hn]; simp)]
  | hdf5 =>
    rw [if_neg (by rw [show CkFormat.hdf5.ext = extH5 from rfl, bin_not_in_h5 base hn]; simp),
      if_pos (h5_in base), if_neg (by simp [ckWrite])]

/-- C29, the part that holds: writing a checkpoint of an unrefined mesh in either format and reading
it back, on any number of processes with any ordering, restores time, step number, step size and the
solution at every cell, provided the name does not contain the other format's extension. Missing: such
names (`C29_name_violated`), the number of processes (`C29_nproc_violated`) and refined meshes
(`C29_refined_violated`). -/
theorem C29_round_trip_partial (s r : CkState) (fmt : CkFormat) (base : Str) (hn : fmt.nameOk base)
    (hs : s.refined = false) (hr : r.refined = false) (hsz : s.size = r.size) :
    ∃ r', ckRead false (base ++ fmt.ext) (ckWrite s fmt) r = .ok r' ∧
      r'.time = s.time ∧ r'.step = s.step ∧ r'.dt = s.dt ∧ r'.restartStep = s.step ∧
      r'.order = r.order ∧ (∀ n, r'.natural n = s.natural n) ∧
      (r.nproc = s.nproc → r'.nproc = r.nproc) := by
  rw [read_ok false s r fmt base hn]
  unfold loadSolution
  cases fmt <;>
  · simp only [consumeMetadata, readHdf5Metadata, ckWrite, hsz, ne_eq, not_true_eq_false, if_false, hr,
      hs, Bool.false_eq_true]
    refine ⟨_, rfl, ?_⟩
    simp only [CkState.natural, true_and, Equiv.apply_symm_apply, implies_true]
    exact fun h => h.symm

/-- C29 (reinitialisation): the clock restarts at zero, with the solution and step size of the file;
the step number is left as it is (zero at setup). -/
theorem C29_reinitialize (s r : CkState) (fmt : CkFormat) (base : Str) (hn : fmt.nameOk base)
    (hs : s.refined = false) (hr : r.refined = false) (hsz : s.size = r.size) :
    ∃ r', ckRead true (base ++ fmt.ext) (ckWrite s fmt) r = .ok r' ∧
      r'.time = 0 ∧ r'.restartStep = 0 ∧ r'.step = r.step ∧ r'.dt = s.dt ∧
      (∀ n, r'.natural n = s.natural n) := by
  rw [read_ok true s r fmt base hn]
  unfold loadSolution
  cases fmt <;>
  · simp only [consumeMetadata, readHdf5Metadata, ckWrite, hsz, ne_eq, not_true_eq_false, if_false, hr,
      hs, Bool.false_eq_true, if_true]
    refine ⟨_, rfl, ?_⟩
    simp [CkState.natural]

example : ∃ r', ckRead false (['c', '1'] ++ CkFormat.hdf5.ext)
    (ckWrite ⟨4, 30, 3, 3, 10, -1, false, Equiv.refl ℕ, 5, fun n => n⟩ .hdf5)
    ⟨2, 0, 1, 1, 0, -1, false, Equiv.swap 0 1, 5, fun _ => 0⟩ = .ok r' ∧ r'.natural 1 = 1 ∧
    r'.step = 10 := by
  obtain ⟨r', h1, _, h3, _, _, _, h4, _⟩ := C29_round_trip_partial
    ⟨4, 30, 3, 3, 10, -1, false, Equiv.refl ℕ, 5, fun n => n⟩
    ⟨2, 0, 1, 1, 0, -1, false, Equiv.swap 0 1, 5, fun _ => 0⟩ .hdf5 ['c', '1']
    (by simp only [CkFormat.nameOk]; decide) rfl rfl rfl
  exact ⟨r', h1, by rw [h4]; simp [CkState.natural], h3⟩

example : ∃ r', ckRead true (['c', '1'] ++ CkFormat.binary.ext)
    (ckWrite ⟨4, 30, 3, 3, 10, -1, false, Equiv.refl ℕ, 5, fun n => n⟩ .binary)
    ⟨2, 0, 1, 1, 0, -1, false, Equiv.refl ℕ, 5, fun _ => 0⟩ = .ok r' ∧ r'.time = 0 := by
  obtain ⟨r', h1, h2, _⟩ := C29_reinitialize
    ⟨4, 30, 3, 3, 10, -1, false, Equiv.refl ℕ, 5, fun n => n⟩
    ⟨2, 0, 1, 1, 0, -1, false, Equiv.refl ℕ, 5, fun _ => 0⟩ .binary ['c', '1']
    (by simp only [CkFormat.nameOk]; decide) rfl rfl rfl
  exact ⟨r', h1, h2⟩

/-- C29 fails for the number of processes: after restarting on a different number of processes the
library believes in the number of the run that wrote the file (buffers for gathering output are
allocated from it, `/repo/src/time_series.c:38,99`). -/
theorem C29_nproc_violated (reinit : Bool) (s r : CkState) (fmt : CkFormat) (base : Str)
    (hn : fmt.nameOk base) (hsz : s.size = r.size) (hp : s.nproc ≠ r.nproc) :
    ∃ r', ckRead reinit (base ++ fmt.ext) (ckWrite s fmt) r = .ok r' ∧ r'.nproc = s.nproc ∧
      r'.nproc ≠ r.nproc := by
  rw [read_ok reinit s r fmt base hn]
  unfold loadSolution
  cases fmt <;>
  · simp only [consumeMetadata, readHdf5Metadata, ckWrite, hsz, ne_eq, not_true_eq_false, if_false]
    exact ⟨_, rfl, rfl, hp⟩

example : ∃ r', ckRead false (['c'] ++ CkFormat.hdf5.ext)
    (ckWrite ⟨4, 30, 3, 3, 10, -1, false, Equiv.refl ℕ, 5, fun n => n⟩ .hdf5)
    ⟨2, 0, 1, 1, 0, -1, false, Equiv.refl ℕ, 5, fun _ => 0⟩ = .ok r' ∧ r'.nproc = 4 ∧ r'.nproc ≠ 2 :=
  C29_nproc_violated false ⟨4, 30, 3, 3, 10, -1, false, Equiv.refl ℕ, 5, fun n => n⟩
    ⟨2, 0, 1, 1, 0, -1, false, Equiv.refl ℕ, 5, fun _ => 0⟩ .hdf5 ['c']
    (by simp only [CkFormat.nameOk]; decide) rfl (by simp)

/-- C29 fails for names that contain the other format's extension: no checkpoint written under such
a base name can be read. -/
theorem C29_name_violated (reinit : Bool) (s r : CkState) (fmt : CkFormat) (base : Str)
    (hn : ¬ fmt.nameOk base) (r' : CkState) :
    ckRead reinit (base ++ fmt.ext) (ckWrite s fmt) r ≠ .ok r' := by
  have hmono : ∀ e : Str, contains e base = true → ∀ x, contains e (base ++ x) = true := by
    intro e he x
    rw [contains_iff] at he ⊢
    exact he.trans (List.prefix_append _ _).isInfix
  unfold ckRead
  cases fmt with
  | binary =>
    simp only [CkFormat.nameOk, Bool.not_eq_false] at hn
    rw [if_pos (bin_in base), if_neg (by simp [ckWrite]), if_pos (hmono _ hn _)]
    simp
  | hdf5 =>
    simp only [CkFormat.nameOk, Bool.not_eq_false] at hn
    rw [if_pos (hmono _ hn _), if_pos (by simp [ckWrite])]
    simp

/-- The base name `"out.bin1"` in HDF5 format. -/
example : ¬ CkFormat.hdf5.nameOk ['o', 'u', 't', '.', 'b', 'i', 'n', '1'] := by
  simp only [CkFormat.nameOk]; decide

/-- C29 (refined meshes): reading back with the same refined mesh in the same process restores the
solution. -/
theorem C29_refined_same_mesh (s r : CkState) (fmt : CkFormat) (base : Str) (hn : fmt.nameOk base)
    (hs : s.refined = true) (hr : r.refined = true) (hsz : s.size = r.size) :
    ∃ r', ckRead false (base ++ fmt.ext) (ckWrite s fmt) r = .ok r' ∧ r'.sol = s.sol ∧
      r'.time = s.time ∧ r'.step = s.step ∧ r'.dt = s.dt := by
  rw [read_ok false s r fmt base hn]
  unfold loadSolution
  cases fmt <;>
  · simp only [consumeMetadata, readHdf5Metadata, ckWrite, hsz, ne_eq, not_true_eq_false, if_false, hr,
      hs, if_true]
    exact ⟨_, rfl, rfl, rfl, rfl, rfl⟩

example : ∃ r', ckRead false (['c'] ++ CkFormat.hdf5.ext)
    (ckWrite ⟨1, 3, 1, 1, 3, -1, true, Equiv.swap 0 1, 5, fun n => n⟩ .hdf5)
    ⟨1, 0, 1, 1, 0, -1, true, Equiv.swap 0 1, 5, fun _ => 0⟩ = .ok r' ∧ r'.sol = fun n : ℕ => (n : ℝ) := by
  obtain ⟨r', h1, h2, _⟩ := C29_refined_same_mesh
    ⟨1, 3, 1, 1, 3, -1, true, Equiv.swap 0 1, 5, fun n => n⟩
    ⟨1, 0, 1, 1, 0, -1, true, Equiv.swap 0 1, 5, fun _ => 0⟩ .hdf5 ['c']
    (by simp only [CkFormat.nameOk]; decide) rfl rfl rfl
  exact ⟨r', h1, h2⟩

/-- C29 fails after refinement: a new run starts from the unrefined mesh, and a checkpoint of a
refined mesh (with a different number of unknowns) cannot be read. -/
theorem C29_refined_violated (reinit : Bool) (s r : CkState) (fmt : CkFormat) (base : Str)
    (hn : fmt.nameOk base) (hsz : s.size ≠ r.size) :
    ckRead reinit (base ++ fmt.ext) (ckWrite s fmt) r = .error := by
  rw [read_ok reinit s r fmt base hn]
  unfold loadSolution
  cases fmt <;>
  · simp only [consumeMetadata, readHdf5Metadata, ckWrite]
    simp [hsz]

example : ckRead false (['c'] ++ CkFormat.hdf5.ext)
    (ckWrite ⟨1, 3, 1, 1, 3, -1, true, Equiv.refl ℕ, 12, fun n => n⟩ .hdf5)
    ⟨1, 0, 1, 1, 0, -1, false, Equiv.refl ℕ, 3, fun _ => 0⟩ = .error :=
  C29_refined_violated false ⟨1, 3, 1, 1, 3, -1, true, Equiv.refl ℕ, 12, fun n => n⟩
    ⟨1, 0, 1, 1, 0, -1, false, Equiv.refl ℕ, 3, fun _ => 0⟩ .hdf5 ['c']
    (by simp only [CkFormat.nameOk]; decide) (by simp)

/-- C29 (other files): a name without a known extension is rejected. -/
theorem C29_unknown_extension (reinit : Bool) (name : Str) (f : CkFile) (r : CkState)
    (h1 : contains extBin name = false) (h2 : contains extH5 name = false) :
    ckRead reinit name f r = .error := by
  unfold ckRead
  rw [h1, h2]
  simp

example (f : CkFile) (r : CkState) : ckRead false ['a', '.', 'n', 'c'] f r = .error :=
  C29_unknown_extension false _ f r (by decide) (by decide)

/-! ### C30: when checkpoints are written -/

/-- C30 (when): with interval `n`, a checkpoint is written at step `k` iff checkpointing is on
(`n ≠ 0`) and `k` is a multiple of `n`. -/
theorem C30_due (interval step : ℤ) :
    checkpointDue interval step = true ↔ interval ≠ 0 ∧ ∃ m, step = interval * m := by
  unfold checkpointDue
  simp only [Bool.and_eq_true, decide_eq_true_eq, beq_iff_eq]
  refine and_congr_right fun _ => ?_
  rw [← Int.dvd_iff_tmod_eq_zero]
  rfl

example : checkpointDue 5 15 = true := (C30_due 5 15).mpr ⟨by omega, 3, by omega⟩

/-- C30 (files of a run): in a run that reports steps `0, …, n` (with repetitions at coupling
boundaries, in any order), the files are exactly one for each multiple of the interval reported, and
files of different steps have different names. -/
theorem C30_files (dir pre ext : Str) (mx : ℕ) (interval : ℤ) (calls : List ℕ) (k l : ℕ)
    (hk : k ∈ checkpointSteps interval calls) (f : Str)
    (hfk : checkpointFilename dir pre k mx ext = some f)
    (hfl : checkpointFilename dir pre l mx ext = some f) :
    k = l ∧ k ∈ calls ∧ interval ∣ k := by
  have hmem := List.mem_filter.mp hk
  obtain ⟨_, m, hm⟩ := (C30_due interval k).mp hmem.2
  exact ⟨C30_checkpoint_names_injective dir pre ext mx k l f hfk hfl, hmem.1, m, hm⟩

example : checkpointSteps 2 [0, 1, 2, 2, 3, 4] = [0, 2, 2, 4] := by decide

/-- C30 (which steps): every multiple of the interval that is reported is written. -/
theorem C30_complete (interval : ℤ) (h0 : interval ≠ 0) (calls : List ℕ) (k : ℕ) (hk : k ∈ calls)
    (hd : interval ∣ k) : k ∈ checkpointSteps interval calls := by
  obtain ⟨m, hm⟩ := hd
  exact List.mem_filter.mpr ⟨hk, (C30_due interval k).mpr ⟨h0, m, hm⟩⟩

example : 4 ∈ checkpointSteps 2 [0, 1, 2, 2, 3, 4] := C30_complete 2 (by omega) _ 4 (by simp) ⟨2, rfl⟩

end RDy
