import Verif.Model.Directories
import Verif.Props.Ensemble
import Mathlib.Tactic

/-!
# C123: the directories of a run exist before anything is written to them

Specification: `withDirs fs ps` is the file system in which a directory was added at every place of `ps` where nothing was, and nothing else changed. `under D m` is the place of the directory
`m` in `D`. `Placeable fs p`: the directory above `p` exists.
-/

namespace RDy

/-- Specification: a name without slash. -/
def PlainName (m : Str) : Prop := m ≠ [] ∧ '/' ∉ m

/-- Specification: the place of the name `m` in the directory `D`. -/
def under (D m : Str) : Bool × List Str := ((toPath D).1, (toPath D).2 ++ [m])

/-- Specification: the root and the working directory are directories. -/
def FileSys.Rooted (fs : FileSys) : Prop := ∀ b, fs (b, []) = some .dir

/-- Specification: the directory above exists. -/
def Placeable (fs : FileSys) (p : Bool × List Str) : Prop := p.2 = [] ∨ fs (p.1, p.2.dropLast) = some .dir

/-- Specification: directories added where nothing was, all else unchanged. -/
def withDirs (fs : FileSys) (ps : List (Bool × List Str)) : FileSys := fun q => if q ∈ ps ∧ fs q = none then some .dir else fs q

theorem pathParts_slash (s t : Str) : ∀ cur, pathParts cur (s ++ '/' :: t) = pathParts cur s ++ pathParts [] t := by
  induction s with
  | nil =>
    intro cur
    by_cases h : cur = []
    · simp [pathParts, h]
    · simp [pathParts, h]
  | cons c cs ih =>
    intro cur
    rw [List.cons_append]
    by_cases hc : c = '/'
    · by_cases h : cur = []
      · simp only [pathParts, if_pos hc, if_pos h]; exact ih []
      · simp only [pathParts, if_pos hc, if_neg h, List.cons_append]; rw [ih []]
    · simp only [pathParts, if_neg hc]; exact ih _

theorem pathParts_plain (m : Str) : ∀ cur, '/' ∉ m → pathParts cur m = if cur ++ m = [] then [] else [cur ++ m] := by
  induction m with
  | nil => intro cur _; simp [pathParts]
  | cons c cs ih =>
    intro cur h
    have hc : ¬ c = '/' := fun hc => h (by rw [hc]; exact List.mem_cons_self)
    simp only [pathParts, if_neg hc]
    rw [ih _ (fun hx => h (List.mem_cons_of_mem _ hx))]
    simp

/-- C123: the directory of a member is the one of its name in the common directory, also if that was given with a slash at its end. -/
theorem C123_member_path (D m : Str) (hD : D ≠ []) (hm : PlainName m) : toPath (D ++ ['/'] ++ m) = under D m := by
  have e : D ++ ['/'] ++ m = D ++ '/' :: m := by simp
  unfold toPath under toPath
  rw [e, pathParts_slash, pathParts_plain m [] hm.2]
  have : ¬ ([] ++ m = ([] : Str)) := by simpa using hm.1
  rw [if_neg this]
  cases D with
  | nil => exact absurd rfl hD
  | cons c cs => simp

/-- Specification: how a path is written: names separated by slashes, with a slash in front if it starts at the root. -/
def writePath (p : Bool × List Str) : Str := (if p.1 = true then ['/'] else []) ++ ['/'].intercalate p.2

theorem pathParts_intercalate (l : List Str) (h : ∀ m ∈ l, PlainName m) : pathParts [] (['/'].intercalate l) = l := by
  induction l with
  | nil => simp [pathParts]
  | cons a t ih =>
    have ha := h a List.mem_cons_self
    have hpa : pathParts [] a = [a] := by
      rw [pathParts_plain a [] ha.2]
      have : ¬ ([] ++ a = ([] : Str)) := by simpa using ha.1
      rw [if_neg this]; rfl
    cases t with
    | nil => simpa [List.intercalate] using hpa
    | cons b t =>
      have hi := ih (fun m hm => h m (List.mem_cons_of_mem _ hm))
      have e : ['/'].intercalate (a :: b :: t) = a ++ '/' :: ['/'].intercalate (b :: t) := by
        simp [List.intercalate, List.intersperse]
      rw [e, pathParts_slash, hpa, hi]; rfl

/-- C123: the place that a path stands for is the one that was written: from the root exactly if it has a slash in front, and with the names between the slashes. -/
theorem C123_path_round_trip (p : Bool × List Str) (h : ∀ m ∈ p.2, PlainName m) : toPath (writePath p) = p := by
  obtain ⟨b, l⟩ := p
  unfold toPath writePath
  cases b with
  | true =>
    have e : (if true = true then ['/'] else []) ++ ['/'].intercalate l = '/' :: ['/'].intercalate l := rfl
    have e2 : pathParts [] ('/' :: ['/'].intercalate l) = pathParts [] (['/'].intercalate l) := by simp [pathParts]
    dsimp only
    rw [e, e2, pathParts_intercalate l h]
    simp
  | false =>
    have e : (if false = true then ['/'] else []) ++ ['/'].intercalate l = ['/'].intercalate l := rfl
    dsimp only
    rw [e, pathParts_intercalate l h]
    refine Prod.ext ?_ rfl
    dsimp only
    cases l with
    | nil => decide
    | cons a t =>
      have ha := h a List.mem_cons_self
      obtain ⟨c, cs, rfl⟩ := List.exists_cons_of_ne_nil ha.1
      have hc : c ≠ '/' := fun hc => ha.2 (by rw [hc]; exact List.mem_cons_self)
      have : (['/'].intercalate ((c :: cs) :: t)).head? = some c := by
        cases t <;> simp [List.intercalate, List.intersperse]
      rw [this]
      simpa using hc

example : toPath ['/', 'a', '/', 'b', 'c'] = (true, [['a'], ['b', 'c']]) ∧ toPath ['a', '/', 'b', 'c'] = (false, [['a'], ['b', 'c']]) ∧
    writePath (true, [['a'], ['b', 'c']]) = ['/', 'a', '/', 'b', 'c'] := by decide

theorem withDirs_keep (fs : FileSys) (ps : List (Bool × List Str)) (q : Bool × List Str) (n : FsNode) (h : fs q = some n) : withDirs fs ps q = some n := by
  unfold withDirs
  rw [if_neg (fun hx => by rw [h] at hx; exact absurd hx.2 (by simp))]
  exact h

theorem withDirs_cons (fs : FileSys) (p : Bool × List Str) (ps : List (Bool × List Str)) : withDirs (withDirs fs [p]) ps = withDirs fs (p :: ps) := by
  funext q
  unfold withDirs
  by_cases h1 : fs q = none
  · by_cases h2 : q = p
    · subst h2; simp [h1]
    · simp [h1, h2]
  · simp [h1]

theorem withDirs_same (fs : FileSys) (p : Bool × List Str) (h : fs p ≠ none) : withDirs fs [p] = fs := by
  funext q
  unfold withDirs
  by_cases h2 : q = p
  · subst h2; simp [h]
  · simp [h2]

theorem createDirectory_ok (fs : FileSys) (s : Str) (hs : s ≠ []) (hr : fs.Rooted) (hp : Placeable fs (toPath s)) :
    createDirectory fs s = (withDirs fs [toPath s], true) := by
  unfold createDirectory mkdirAt
  rw [if_neg hs]
  by_cases h1 : (toPath s).2 = []
  · rw [if_pos h1]
    have : fs (toPath s) ≠ none := by
      have h2 := hr (toPath s).1
      rw [← h1] at h2
      rw [show toPath s = ((toPath s).1, (toPath s).2) from rfl, h2]; simp
    rw [withDirs_same fs _ this]
    simp
  · rw [if_neg h1]
    have h2 : fs ((toPath s).1, (toPath s).2.dropLast) = some .dir := hp.resolve_left h1
    have h2' : ¬ fs ((toPath s).1, (toPath s).2.dropLast) ≠ some .dir := fun h => h h2
    rw [if_neg h2']
    by_cases h3 : fs (toPath s) ≠ none
    · rw [if_pos h3, withDirs_same fs _ h3]; simp
    · rw [if_neg h3]
      refine Prod.ext ?_ (by simp)
      funext q
      dsimp only
      unfold withDirs
      by_cases hq : q = toPath s
      · subst hq
        rw [Function.update_self, if_pos ⟨by simp, by simpa using h3⟩]
      · rw [Function.update_of_ne hq]
        rw [if_neg (fun hx => hq (by simpa using hx.1))]

theorem createDirectory_fail (fs : FileSys) (s : Str) (h : s = [] ∨ ¬ Placeable fs (toPath s)) : createDirectory fs s = (fs, false) := by
  unfold createDirectory mkdirAt
  by_cases hs : s = []
  · rw [if_pos hs]; simp
  · rw [if_neg hs]
    have hp := h.resolve_left hs
    unfold Placeable at hp
    rw [not_or] at hp
    rw [if_neg hp.1, if_pos hp.2]; simp

theorem createAll_ok (b : Bool) (P : List Str) (l : List Str) : ∀ (fs : FileSys), fs.Rooted → fs (b, P) = some .dir →
    (∀ s ∈ l, s ≠ [] ∧ ∃ m, toPath s = (b, P ++ [m])) → createAll fs l = (withDirs fs (l.map toPath), l.map fun _ => true) := by
  induction l with
  | nil =>
    intro fs _ _ _
    refine Prod.ext ?_ rfl
    funext q
    simp [createAll, withDirs]
  | cons s t ih =>
    intro fs hr hP hl
    obtain ⟨hs, m, hm⟩ := hl s List.mem_cons_self
    have hp : Placeable fs (toPath s) := by
      right; rw [hm]; simpa using hP
    have h1 := createDirectory_ok fs s hs hr hp
    have h2 := ih (withDirs fs [toPath s]) (fun c => withDirs_keep fs _ _ _ (hr c)) (withDirs_keep fs _ _ _ hP)
      (fun x hx => hl x (List.mem_cons_of_mem _ hx))
    simp only [createAll, h1, h2, withDirs_cons, List.map_cons]

theorem createAll_fail (fs : FileSys) (l : List Str) (h : ∀ s ∈ l, s = [] ∨ ¬ Placeable fs (toPath s)) :
    createAll fs l = (fs, l.map fun _ => false) := by
  induction l with
  | nil => rfl
  | cons s t ih =>
    simp only [createAll, createDirectory_fail fs s (h s List.mem_cons_self), ih (fun x hx => h x (List.mem_cons_of_mem _ hx)), List.map_cons]

theorem createDirs_ok (fs : FileSys) (hr : fs.Rooted) (D : Str) (hD : D ≠ []) (hp : Placeable fs (toPath D)) (hf : fs (toPath D) ≠ some .file)
    (members : List Str) (hm : ∀ m ∈ members, PlainName m) :
    createDirs fs true D (members.map fun m => D ++ ['/'] ++ m) = (withDirs fs (toPath D :: members.map (under D)), members.map fun _ => true) := by
  unfold createDirs
  rw [if_pos rfl, createDirectory_ok fs D hD hr hp]
  dsimp only
  rw [if_pos rfl]
  have hdir : withDirs fs [toPath D] ((toPath D).1, (toPath D).2) = some .dir := by
    show withDirs fs [toPath D] (toPath D) = some .dir
    cases hx : fs (toPath D) with
    | none => unfold withDirs; rw [if_pos ⟨by simp, hx⟩]
    | some n =>
      cases n with
      | dir => exact withDirs_keep fs _ _ _ hx
      | file => exact absurd hx hf
  rw [createAll_ok (toPath D).1 (toPath D).2 _ _ (fun c => withDirs_keep fs _ _ _ (hr c)) hdir, withDirs_cons, List.map_map, List.map_map]
  · refine Prod.ext ?_ rfl
    dsimp only
    congr 2
    exact List.map_congr_left fun m hmm => C123_member_path D m hD (hm m hmm)
  · intro s hs
    obtain ⟨m, hmm, rfl⟩ := List.mem_map.1 hs
    exact ⟨by simp, m, C123_member_path D m hD (hm m hmm)⟩

/-- C123, the output of an ensemble: if the directory above the one given in the file exists and no file has its name, and the names of the members have no slash, the call succeeds on every
process whatever the order of the members; then the common directory and one for every member are there, and nothing else has changed. Missing for the full property: a file in place of
the directory of a member (`C123_file_violated`), names with a slash (`C123_race_violated`), and names given twice (`C14_name_clash_violated`). -/
theorem C123_ensemble_output_partial (fs : FileSys) (hr : fs.Rooted) (D : Str) (hD : D ≠ []) (hp : Placeable fs (toPath D)) (hf : fs (toPath D) ≠ some .file)
    (size : ℕ) (hsz : 1 < size) (members : List Str) (hm : ∀ m ∈ members, PlainName m) :
    createOutputDirs fs D size members = (withDirs fs (toPath D :: members.map (under D)), members.map fun _ => true) := by
  unfold createOutputDirs
  rw [decide_eq_true (show size > 1 from hsz)]
  have : (fun m => outputDirOf ⟨D, size, m⟩) = fun m => D ++ ['/'] ++ m := by
    funext m; unfold outputDirOf; exact if_pos hsz
  rw [this]
  exact createDirs_ok fs hr D hD hp hf members hm

/-- C123, the output of a single run: if the directory above the one given exists, the call succeeds, the directory is there unless a file was, and nothing else has changed. -/
theorem C123_single_output_partial (fs : FileSys) (hr : fs.Rooted) (D : Str) (hD : D ≠ []) (hp : Placeable fs (toPath D)) (size : ℕ) (hsz : ¬ 1 < size) (m : Str) :
    createOutputDirs fs D size [m] = (withDirs fs [toPath D], [true]) := by
  unfold createOutputDirs createDirs
  have h0 : ¬ decide (size > 1) = true := by simpa using hsz
  rw [if_neg h0]
  have : outputDirOf ⟨D, size, m⟩ = D := by unfold outputDirOf; exact if_neg hsz
  simp only [List.map_cons, List.map_nil, this, createAll, createDirectory_ok fs D hD hr hp]

/-- C123: the directory of every member is there afterwards, if no file has its place; so is the common one. -/
theorem C123_exists (fs : FileSys) (hr : fs.Rooted) (D : Str) (hD : D ≠ []) (hp : Placeable fs (toPath D)) (hf : fs (toPath D) ≠ some .file)
    (size : ℕ) (hsz : 1 < size) (members : List Str) (hm : ∀ m ∈ members, PlainName m) (m : Str) (hmem : m ∈ members) (hn : fs (under D m) ≠ some .file) :
    (createOutputDirs fs D size members).1 (toPath D) = some .dir ∧
    (createOutputDirs fs D size members).1 (toPath (outputDirOf ⟨D, size, m⟩)) = some .dir := by
  rw [C123_ensemble_output_partial fs hr D hD hp hf size hsz members hm]
  have : outputDirOf ⟨D, size, m⟩ = D ++ ['/'] ++ m := by unfold outputDirOf; exact if_pos hsz
  rw [this, C123_member_path D m hD (hm m hmem)]
  have key : ∀ q, q ∈ toPath D :: members.map (under D) → fs q ≠ some .file → withDirs fs (toPath D :: members.map (under D)) q = some .dir := by
    intro q hq hnf
    cases hx : fs q with
    | none => unfold withDirs; exact if_pos ⟨hq, hx⟩
    | some n =>
      cases n with
      | dir => exact withDirs_keep fs _ _ _ hx
      | file => exact absurd hx hnf
  exact ⟨key _ List.mem_cons_self hf, key _ (List.mem_cons_of_mem _ (List.mem_map_of_mem hmem)) hn⟩

/-- C123: the order in which the members get to their calls does not matter. -/
theorem C123_order (fs : FileSys) (hr : fs.Rooted) (D : Str) (hD : D ≠ []) (hp : Placeable fs (toPath D)) (hf : fs (toPath D) ≠ some .file)
    (size : ℕ) (hsz : 1 < size) (l l' : List Str) (hl : l.Perm l') (hm : ∀ m ∈ l, PlainName m) :
    (createOutputDirs fs D size l).1 = (createOutputDirs fs D size l').1 ∧ ∀ ok ∈ (createOutputDirs fs D size l').2, ok = true := by
  rw [C123_ensemble_output_partial fs hr D hD hp hf size hsz l hm,
    C123_ensemble_output_partial fs hr D hD hp hf size hsz l' (fun m h => hm m (hl.mem_iff.2 h))]
  refine ⟨?_, fun ok h => ?_⟩
  · funext q
    unfold withDirs
    have : q ∈ toPath D :: l.map (under D) ↔ q ∈ toPath D :: l'.map (under D) := by
      simp only [List.mem_cons, (hl.map (under D)).mem_iff]
    simp only [this]
  · obtain ⟨m, -, rfl⟩ := List.mem_map.1 h
    rfl

/-- C123, checkpoints: their directory is in the working directory, so that nothing but files in its place can prevent it. -/
theorem C123_checkpoints_partial (fs : FileSys) (hr : fs.Rooted) (size : ℕ) (members : List Str) (hm : ∀ m ∈ members, PlainName m) :
    (1 < size → fs (false, ["checkpoints".toList]) ≠ some .file →
      createCheckpointDirs fs size members = (withDirs fs ((false, ["checkpoints".toList]) :: members.map fun m => (false, ["checkpoints".toList, m])), members.map fun _ => true)) ∧
    (¬ 1 < size → ∀ m, createCheckpointDirs fs size [m] = (withDirs fs [(false, ["checkpoints".toList])], [true])) := by
  have hpath : toPath "checkpoints".toList = (false, ["checkpoints".toList]) := by decide
  have hne : "checkpoints".toList ≠ [] := by decide
  have hp : Placeable fs (toPath "checkpoints".toList) := by right; rw [hpath]; exact hr false
  refine ⟨fun hsz hf => ?_, fun hsz m => ?_⟩
  · unfold createCheckpointDirs
    rw [decide_eq_true (show size > 1 from hsz)]
    have : (fun m => checkpointDirOf ⟨[], size, m⟩) = fun m => "checkpoints".toList ++ ['/'] ++ m := by
      funext m; unfold checkpointDirOf; exact (if_pos hsz).trans rfl
    rw [this, createDirs_ok fs hr _ hne hp (by rw [hpath]; exact hf) members hm, hpath]
    have hu : ∀ m, under "checkpoints".toList m = (false, ["checkpoints".toList, m]) := by
      intro m; unfold under; rw [hpath]; rfl
    rw [show under "checkpoints".toList = fun m => (false, ["checkpoints".toList, m]) from funext hu]
  · unfold createCheckpointDirs createDirs
    have h0 : ¬ decide (size > 1) = true := by simpa using hsz
    rw [if_neg h0]
    have : checkpointDirOf ⟨[], size, m⟩ = "checkpoints".toList := by unfold checkpointDirOf; exact if_neg hsz
    simp only [List.map_cons, List.map_nil, this, createAll, createDirectory_ok fs _ hne hr hp, hpath]

/-- C123: if the directory above the one given in the file does not exist, or the name is empty, every process reports an error and nothing is made: a nested directory is refused, not made. -/
theorem C123_refused (fs : FileSys) (D : Str) (h : D = [] ∨ ¬ Placeable fs (toPath D)) (size : ℕ) (members : List Str) :
    createOutputDirs fs D size members = (fs, members.map fun _ => false) := by
  unfold createOutputDirs createDirs
  by_cases hsz : size > 1
  · rw [if_pos (decide_eq_true hsz), createDirectory_fail fs D h]
    dsimp only
    rw [if_neg (by simp), List.map_map]
    rfl
  · have h0 : ¬ decide (size > 1) = true := by simpa using hsz
    rw [if_neg h0]
    have : (fun m => outputDirOf ⟨D, size, m⟩) = fun _ => D := by
      funext m; unfold outputDirOf; exact if_neg hsz
    rw [this, createAll_fail fs _ (fun s hs => ?_), List.map_map]
    · rfl
    · obtain ⟨m, -, rfl⟩ := List.mem_map.1 hs
      exact h

/-- C123: an ensemble whose common directory is a file is refused on every process. -/
theorem C123_common_file (fs : FileSys) (hr : fs.Rooted) (D : Str) (hD : D ≠ []) (hp : Placeable fs (toPath D)) (hf : fs (toPath D) = some .file)
    (size : ℕ) (hsz : 1 < size) (members : List Str) (hm : ∀ m ∈ members, PlainName m) :
    createOutputDirs fs D size members = (fs, members.map fun _ => false) := by
  unfold createOutputDirs createDirs
  rw [if_pos (decide_eq_true hsz), createDirectory_ok fs D hD hr hp]
  dsimp only
  rw [if_pos rfl, withDirs_same fs _ (by rw [hf]; simp)]
  have : (fun m => outputDirOf ⟨D, size, m⟩) = fun m => D ++ ['/'] ++ m := by
    funext m; unfold outputDirOf; exact if_pos hsz
  rw [this, createAll_fail fs _ (fun s hs => ?_), List.map_map]
  · rfl
  · obtain ⟨m, hmm, rfl⟩ := List.mem_map.1 hs
    right
    rw [C123_member_path D m hD (hm m hmm)]
    unfold Placeable under
    simp only [List.append_eq_nil_iff, List.cons_ne_self, and_false, false_or, List.dropLast_concat]
    rw [show ((toPath D).1, (toPath D).2) = toPath D from rfl, hf]
    simp

/-- C123 refuted: a file in place of the directory of a single run, or of a member, is taken for a directory: the call succeeds on every process. -/
theorem C123_file_violated (fs : FileSys) (hr : fs.Rooted) (D : Str) (hD : D ≠ []) (hp : Placeable fs (toPath D)) :
    (fs (toPath D) = some .file → ∀ size m, ¬ 1 < size → createOutputDirs fs D size [m] = (fs, [true])) ∧
    (fs (toPath D) = some .dir → ∀ m, PlainName m → fs (under D m) = some .file → ∀ size, 1 < size →
      createOutputDirs fs D size [m] = (fs, [true])) := by
  refine ⟨fun hf size m hsz => ?_, fun hd m hm hf size hsz => ?_⟩
  · rw [C123_single_output_partial fs hr D hD hp size hsz m, withDirs_same fs _ (by rw [hf]; simp)]
  · rw [C123_ensemble_output_partial fs hr D hD hp (by rw [hd]; simp) size hsz [m] (fun x hx => by rw [List.mem_singleton.1 hx]; exact hm)]
    rw [← withDirs_cons, withDirs_same fs _ (by rw [hd]; simp)]
    simp only [List.map_cons, List.map_nil]
    rw [withDirs_same fs _ (by rw [hf]; simp)]

/-- An empty working directory. -/
def emptyFs : FileSys := fun p => if p.2 = [] then some .dir else none

theorem emptyFs_rooted : emptyFs.Rooted := fun _ => rfl

/-- C123 refuted: with a slash in the name of a member, it depends on which member is faster whether the run starts. -/
theorem C123_race_violated : ∃ (fs : FileSys) (D : Str) (l l' : List Str), fs.Rooted ∧ l.Perm l' ∧
    (createOutputDirs fs D 2 l).2 = [true, true] ∧ (createOutputDirs fs D 2 l').2 = [false, true] :=
  ⟨emptyFs, ['o'], [['a'], ['a', '/', 'b']], [['a', '/', 'b'], ['a']], emptyFs_rooted, List.Perm.swap _ _ _, by decide, by decide⟩

/-- The hypotheses on an empty working directory, with the directory `o/`, and members `a` and `b`. -/
example : emptyFs.Rooted ∧ Placeable emptyFs (toPath ['o', '/']) ∧ emptyFs (toPath ['o', '/']) ≠ some .file ∧ (∀ m ∈ [['a'], ['b']], PlainName m) ∧
    (createOutputDirs emptyFs ['o', '/'] 2 [['a'], ['b']]).1 (false, [['o'], ['b']]) = some .dir ∧
    (createOutputDirs emptyFs ['o', '/'] 2 [['a'], ['b']]).1 (false, [['a']]) = none := by
  refine ⟨emptyFs_rooted, Or.inr rfl, by decide, fun m hm => ?_, by decide, by decide⟩
  simp only [List.mem_cons, List.not_mem_nil, or_false] at hm
  rcases hm with rfl | rfl <;> exact ⟨by decide, by decide⟩

/-- A nested directory whose upper part does not exist is refused; a single run into `o` starts. -/
example : ¬ Placeable emptyFs (toPath ['p', '/', 'o']) ∧ (createOutputDirs emptyFs ['p', '/', 'o'] 0 [[]]).2 = [false] ∧
    (createOutputDirs emptyFs ['o'] 0 [[]]).2 = [true] ∧ (createCheckpointDirs emptyFs 0 [[]]).2 = [true] := by
  refine ⟨fun h => ?_, by decide, by decide, by decide⟩
  rcases h with h | h
  · exact absurd h (by decide)
  · exact absurd h (by decide)

/-- A file in place of the directory. -/
example : FileSys.Rooted (fun p => if p.2 = [['o']] then some .file else emptyFs p) ∧ Placeable (fun p => if p.2 = [['o']] then some .file else emptyFs p) (toPath ['o']) ∧
    (fun p : Bool × List Str => if p.2 = [['o']] then some FsNode.file else emptyFs p) (toPath ['o']) = some .file :=
  ⟨fun b => by simp [emptyFs], Or.inr (by decide), by decide⟩

end RDy
