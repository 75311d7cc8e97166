import Verif.Lemmas.Observations

/-!
C115: every line of the file of observations has the time, the place, the name and the value of one component of one cell.
-/

namespace RDy

/-! ### Specification -/

/-- The lines for site `s` in a call `a`: time, coordinates of the centroid of the owned cell with global number `s`, and for each component its name
and its value in this cell. -/
noncomputable def siteRows (nc : ℕ) (names : List Str) (procs : List (List ObsCell)) (a : ObsCall) (s : ℕ) : List ObsLine :=
  match (globalCells procs)[s]?, (globalStates nc a.u)[s]? with
  | some cell, some q => (List.range nc).map fun c =>
      .row a.time (cell.centroid 0) (cell.centroid 1) (cell.centroid 2) (names.getD c []) (q c)
  | _, _ => []

/-- The lines of the observed ones among some calls. -/
noncomputable def observedRows (interval nc : ℕ) (names : List Str) (procs : List (List ObsCell)) (sites : List ℕ) (calls : List ObsCall) :
    List ObsLine :=
  (calls.filter fun a => a.step % interval = 0).flatMap fun a => sites.flatMap (siteRows nc names procs a)

/-! ### Proofs -/

private structure Good (nc : ℕ) (procs : List (List ObsCell)) (sites : List ℕ) (d : ObsData) : Prop where
  last : d.lastStep = -1
  comp : d.numComp = nc
  accum : ObsFits nc procs d.accum
  len : d.sitesU.len = nc * sites.length
  scat : d.scatter = (createScatter nc sites).2
  x : d.x.len = sites.length ∧ ∀ i s, sites[i]? = some s → ∀ c, (globalCells procs)[s]? = some c → d.x.val i = c.centroid 0
  y : d.y.len = sites.length ∧ ∀ i s, sites[i]? = some s → ∀ c, (globalCells procs)[s]? = some c → d.y.val i = c.centroid 1
  z : d.z.len = sites.length ∧ ∀ i s, sites[i]? = some s → ∀ c, (globalCells procs)[s]? = some c → d.z.val i = c.centroid 2

private theorem entries_some {nc : ℕ} (hnc : 0 < nc) {procs : List (List ObsCell)} {u : List (Arr ℝ)} (hu : ObsFits nc procs u) {sites : List ℕ}
    (hs : ∀ s ∈ sites, s < (globalCells procs).length) : ∀ s ∈ sites, ∀ c < nc, (vecEntry u (s * nc + c)).isSome := by
  intro s hm c hc
  rw [vecEntry_states hnc u (obsFits_dvd hu) s c hc, List.getElem?_eq_getElem (by rw [globalStates_length hnc hu]; exact hs s hm)]
  rfl

private theorem init_good {nc : ℕ} (hnc : 0 < nc) {procs : List (List ObsCell)} {u : List (Arr ℝ)} (hu : ObsFits nc procs u) {sites : List ℕ}
    (hs : ∀ s ∈ sites, s < (globalCells procs).length) : ∃ d, initObs nc procs u sites = some d ∧ Good nc procs sites d := by
  obtain ⟨x, x1, x2⟩ := siteCoords_spec 0 procs sites hs
  obtain ⟨y, y1, y2⟩ := siteCoords_spec 1 procs sites hs
  obtain ⟨z, z1, z2⟩ := siteCoords_spec 2 procs sites hs
  unfold initObs
  rw [if_pos (by
    intro p hp
    rw [createScatter_pairs] at hp
    have hp1 := (List.of_mem_zip hp).1
    unfold blockIndices at hp1
    obtain ⟨s, hm, hp2⟩ := List.mem_flatMap.mp hp1
    obtain ⟨c, hc, hp3⟩ := List.mem_map.mp hp2
    rw [← hp3]
    exact entries_some hnc hu hs s hm c (List.mem_range.mp hc)), x1, y1, z1]
  refine ⟨_, rfl, rfl, rfl, ?_, rfl, rfl, x2, y2, z2⟩
  show ObsFits nc procs (u.map fun a => Arr.calloc a.len 0)
  unfold ObsFits at *
  rw [← hu, List.map_map]
  rfl

private theorem mapM_some {α β : Type} (f : α → Option β) (g : α → β) (l : List α) (h : ∀ a ∈ l, f a = some (g a)) :
    l.mapM f = some (l.map g) := by
  induction l with
  | nil => rfl
  | cons a l ih =>
    rw [List.mapM_cons, h a (by simp), ih fun b hb => h b (by simp [hb])]; rfl

private theorem get_some' {α : Type} (a : Arr α) {i : ℕ} (h : i < a.len) : a.get i = some (a.val i) := by unfold Arr.get; rw [if_pos h]

private theorem call_good {nc I : ℕ} (hnc : 0 < nc) (hmax : nc ≤ maxFieldComponents) (hI : 0 < I) {names : List Str} (hn : nc ≤ names.length)
    {procs : List (List ObsCell)} {sites : List ℕ} (hs : ∀ s ∈ sites, s < (globalCells procs).length) {d : ObsData} (hd : Good nc procs sites d)
    (file : List ObsLine) {a : ObsCall} (ha : ObsFits nc procs a.u) :
    ∃ d', obsCall I names (d, file) a = some (d', if a.step % I = 0 then
      (if a.step = 0 then [.header] else file) ++ sites.flatMap (siteRows nc names procs a) else file) ∧ Good nc procs sites d' := by
  obtain ⟨ls, nn, acc, su, sc, dx, dy, dz⟩ := d
  obtain ⟨h1, h2, h3, h4, h5, h6, h7, h8⟩ := hd
  dsimp only at h1 h2 h3 h4 h5 h6 h7 h8
  subst h1 h5
  have e2 : nc = nn := h2.symm
  subst e2
  unfold obsCall
  by_cases hstep : a.step % I = 0
  · rw [if_pos ⟨hI, hstep, by show (-1 : ℤ) < _; omega⟩, if_pos hstep]
    have hcopy : vecCopy a.u acc = some a.u := by
      unfold vecCopy
      rw [if_pos (ha.trans h3.symm)]
    show ∃ d', (vecCopy a.u acc).bind _ = _ ∧ _
    rw [hcopy]
    obtain ⟨w, w1, w2, w3⟩ := scatter_sites a.u sites su h4 (entries_some hnc ha hs)
    have hrow : ∀ i s, sites[i]? = some s →
        (List.range nc).mapM (fun c => obsRow ⟨-1, nc, a.u, su, (createScatter nc sites).2, dx, dy, dz⟩ names w a.time i c) =
        some (siteRows nc names procs a s) := by
      intro i s his
      have hil : i < sites.length := (List.getElem?_eq_some_iff.mp his).1
      have hsl := hs s (List.mem_of_getElem? his)
      have hc1 := List.getElem?_eq_getElem hsl
      have hq1 := List.getElem?_eq_getElem (l := globalStates nc a.u) (i := s) (by rw [globalStates_length hnc ha]; exact hsl)
      unfold siteRows
      rw [hc1, hq1]
      dsimp only
      refine mapM_some _ _ _ fun c hc => ?_
      have hc' := List.mem_range.mp hc
      have hv := w3 i s his c hc'
      rw [vecEntry_states hnc a.u (obsFits_dvd ha) s c hc', hq1] at hv
      have hlt : nc * i + c < w.len := by rw [w2]; nlinarith
      unfold obsRow
      dsimp only
      rw [get_some' dx (by rw [h6.1]; exact hil), get_some' dy (by rw [h7.1]; exact hil), get_some' dz (by rw [h8.1]; exact hil),
        List.getElem?_eq_getElem (by omega : c < names.length), get_some' w hlt]
      show some (ObsLine.row _ _ _ _ _ _) = _
      rw [h6.2 i s his _ hc1, h7.2 i s his _ hc1, h8.2 i s his _ hc1, ← Option.some.inj hv, List.getD_eq_getElem?_getD,
        List.getElem?_eq_getElem (by omega : c < names.length)]
      rfl
    have hdiv : w.len / nc = sites.length := by rw [w2, Nat.mul_div_cancel_left _ hnc]
    have hall : (List.range (w.len / nc)).mapM (fun i => (List.range nc).mapM fun c =>
        obsRow ⟨-1, nc, a.u, su, (createScatter nc sites).2, dx, dy, dz⟩ names w a.time i c) = some (sites.map (siteRows nc names procs a)) := by
      rw [hdiv]
      rw [mapM_some _ (fun i => siteRows nc names procs a (sites.getD i 0)) _ (fun i hi => by
        have hil := List.mem_range.mp hi
        rw [List.getD_eq_getElem?_getD, List.getElem?_eq_getElem hil]
        exact hrow i _ (List.getElem?_eq_getElem hil))]
      congr 1
      apply List.ext_getElem
      · simp
      · intro i h1 h2
        have h3 : i < sites.length := by simpa using h2
        simp [List.getElem?_eq_getElem h3]
    refine ⟨⟨-1, nc, a.u, w, (createScatter nc sites).2, dx, dy, dz⟩, ?_, rfl, rfl, ha, w2, rfl, h6, h7, h8⟩
    show writeObs ⟨-1, nc, a.u, su, (createScatter nc sites).2, dx, dy, dz⟩ names a.step a.time file = _
    unfold writeObs
    dsimp only
    rw [w1]
    show (if nc = 0 ∨ maxFieldComponents < nc then none else _) = _
    rw [if_neg (by omega), hall]
    show some _ = some _
    dsimp only
    rw [← List.flatMap_def]
  · rw [if_neg (fun h => hstep h.2.1), if_neg hstep]
    exact ⟨_, rfl, rfl, rfl, h3, h4, rfl, h6, h7, h8⟩

private theorem run_good {nc I : ℕ} (hnc : 0 < nc) (hmax : nc ≤ maxFieldComponents) (hI : 0 < I) {names : List Str} (hn : nc ≤ names.length)
    {procs : List (List ObsCell)} {sites : List ℕ} (hs : ∀ s ∈ sites, s < (globalCells procs).length) {d : ObsData} (hd : Good nc procs sites d)
    (file : List ObsLine) (calls : List ObsCall) (hc : ∀ a ∈ calls, ObsFits nc procs a.u) (hpos : ∀ a ∈ calls, a.step ≠ 0) :
    ∃ d', calls.foldlM (obsCall I names) (d, file) = some (d', file ++ observedRows I nc names procs sites calls) := by
  induction calls generalizing d file with
  | nil => exact ⟨d, by simp [observedRows]⟩
  | cons a calls ih =>
    obtain ⟨d1, e1, g1⟩ := call_good hnc hmax hI hn hs hd file (hc a (by simp))
    rw [List.foldlM_cons, e1]
    obtain ⟨d2, e2⟩ := ih g1 (if a.step % I = 0 then (if a.step = 0 then [.header] else file) ++ sites.flatMap (siteRows nc names procs a) else file)
      (fun b hb => hc b (by simp [hb])) (fun b hb => hpos b (by simp [hb]))
    refine ⟨d2, e2.trans ?_⟩
    congr 2
    unfold observedRows
    by_cases h : a.step % I = 0
    · rw [if_pos h, if_neg (hpos a (by simp)), List.filter_cons_of_pos (by simpa using h), List.flatMap_cons, List.append_assoc]
    · rw [if_neg h, List.filter_cons_of_neg (by simpa using h)]

/-! ### C115 -/

/-- C115 (acceptance): with sites whose numbers are below the number of cells, and only with such, observations are set up, on every number of
processes. -/
theorem C115_accepted {nc : ℕ} (hnc : 0 < nc) {procs : List (List ObsCell)} {u : List (Arr ℝ)} (hu : ObsFits nc procs u) (sites : List ℕ) :
    (initObs nc procs u sites).isSome ↔ ∀ s ∈ sites, s < (globalCells procs).length := by
  constructor
  · intro h s hs
    by_contra hlt
    unfold initObs at h
    rw [siteCoords_undefined 0 procs sites hs (by omega)] at h
    split at h <;> simp at h
  · intro h
    obtain ⟨d, e, -⟩ := init_good hnc hu h
    rw [e]; rfl

/-- C115 (the file of a run): on every number of processes, whatever the file held before, after any run from step 0 it holds the header and then, for each
observed step in turn, for each site in the order of the configuration, for each component, one line: the time of the step, the centroid of the
cell, the name of the component, and its value in this cell at that time. -/
theorem C115_file {nc I : ℕ} (hnc : 0 < nc) (hmax : nc ≤ maxFieldComponents) (hI : 0 < I) {names : List Str} (hn : nc ≤ names.length)
    {procs : List (List ObsCell)} {sites : List ℕ} (hs : ∀ s ∈ sites, s < (globalCells procs).length) {u : List (Arr ℝ)}
    (hu : ObsFits nc procs u) (file : List ObsLine) {a : ObsCall} (ha : ObsFits nc procs a.u) (h0 : a.step = 0) (calls : List ObsCall)
    (hc : ∀ b ∈ calls, ObsFits nc procs b.u) (hpos : ∀ b ∈ calls, b.step ≠ 0) :
    ∃ d, obsRun I nc names procs sites u file (a :: calls) = some (d, .header :: observedRows I nc names procs sites (a :: calls)) := by
  obtain ⟨d, e, g⟩ := init_good hnc hu hs
  obtain ⟨d1, e1, g1⟩ := call_good hnc hmax hI hn hs g file ha
  rw [if_pos (by rw [h0, Nat.zero_mod]), if_pos h0] at e1
  obtain ⟨d2, e2⟩ := run_good hnc hmax hI hn hs g1 _ calls hc hpos
  refine ⟨d2, ?_⟩
  unfold obsRun
  rw [e]
  show (a :: calls).foldlM _ _ = _
  rw [List.foldlM_cons, e1]
  refine e2.trans ?_
  unfold observedRows
  rw [List.filter_cons_of_pos (by simp [h0]), List.flatMap_cons]
  rfl

/-- C115 (later calls): what later calls add to the file comes after what it holds, which is kept. -/
theorem C115_kept {nc I : ℕ} (hnc : 0 < nc) (hmax : nc ≤ maxFieldComponents) (hI : 0 < I) {names : List Str} (hn : nc ≤ names.length)
    {procs : List (List ObsCell)} {sites : List ℕ} (hs : ∀ s ∈ sites, s < (globalCells procs).length) {u : List (Arr ℝ)}
    (hu : ObsFits nc procs u) (file : List ObsLine) (calls : List ObsCall) (hc : ∀ b ∈ calls, ObsFits nc procs b.u)
    (hpos : ∀ b ∈ calls, b.step ≠ 0) :
    ∃ d, obsRun I nc names procs sites u file calls = some (d, file ++ observedRows I nc names procs sites calls) := by
  obtain ⟨d, e, g⟩ := init_good hnc hu hs
  obtain ⟨d2, e2⟩ := run_good hnc hmax hI hn hs g file calls hc hpos
  refine ⟨d2, ?_⟩
  unfold obsRun
  rw [e]
  exact e2

/-- C115 (number of lines): each observed step has one line for each component of each site. -/
theorem C115_count {nc I : ℕ} (hnc : 0 < nc) {names : List Str} {procs : List (List ObsCell)} {sites : List ℕ}
    (hs : ∀ s ∈ sites, s < (globalCells procs).length) (calls : List ObsCall) (hc : ∀ b ∈ calls, ObsFits nc procs b.u) :
    (observedRows I nc names procs sites calls).length = (calls.countP fun a => a.step % I = 0) * (sites.length * nc) := by
  unfold observedRows
  rw [List.length_flatMap, List.countP_eq_length_filter]
  have key : ∀ a ∈ calls.filter (fun a => a.step % I = 0), (sites.flatMap (siteRows nc names procs a)).length = sites.length * nc := by
    intro a ha
    have hfit := hc a (List.mem_filter.mp ha).1
    rw [List.length_flatMap]
    rw [List.map_congr_left (g := fun _ => nc) fun s hm => by
      unfold siteRows
      rw [List.getElem?_eq_getElem (hs s hm), List.getElem?_eq_getElem (by rw [globalStates_length hnc hfit]; exact hs s hm)]
      simp]
    simp
  rw [List.map_congr_left key]
  simp

/-- C115 (several processes, the part that holds): divisions of the mesh with the same global numbering give the same file, however the cells are
distributed. Missing: the number in the configuration is the position in PETSc's global numbering, which the division decides
(`C115_numbering_violated`). -/
theorem C115_processes_partial {nc I : ℕ} (hnc : 0 < nc) (hmax : nc ≤ maxFieldComponents) (hI : 0 < I) {names : List Str} (hn : nc ≤ names.length)
    {procs procs' : List (List ObsCell)} (hp : globalCells procs = globalCells procs') {sites : List ℕ}
    (hs : ∀ s ∈ sites, s < (globalCells procs).length) {u u' : List (Arr ℝ)} (hu : ObsFits nc procs u) (hu' : ObsFits nc procs' u')
    (file file' : List ObsLine) {calls calls' : List ObsCall}
    (hcc : List.Forall₂ (fun a b : ObsCall => ObsFits nc procs a.u ∧ ObsFits nc procs' b.u ∧ a.step = b.step ∧ a.time = b.time ∧
      globalStates nc a.u = globalStates nc b.u) calls calls') (hne : calls ≠ [])
    (h0 : ∀ a ∈ calls.head?, a.step = 0) (hpos : ∀ a ∈ calls.tail, a.step ≠ 0) :
    ∃ d d' f, obsRun I nc names procs sites u file calls = some (d, f) ∧ obsRun I nc names procs' sites u' file' calls' = some (d', f) := by
  have key : ∀ {l l' : List ObsCall}, List.Forall₂ (fun a b : ObsCall => ObsFits nc procs a.u ∧ ObsFits nc procs' b.u ∧ a.step = b.step ∧
      a.time = b.time ∧ globalStates nc a.u = globalStates nc b.u) l l' → (∀ a ∈ l, ObsFits nc procs a.u) ∧ (∀ b ∈ l', ObsFits nc procs' b.u) ∧
      ((∀ a ∈ l, a.step ≠ 0) → ∀ b ∈ l', b.step ≠ 0) ∧
      observedRows I nc names procs sites l = observedRows I nc names procs' sites l' := by
    intro l l' h
    induction h with
    | nil => exact ⟨by simp, by simp, by simp, rfl⟩
    | @cons a b l l' hab _ ih =>
      obtain ⟨i1, i2, i3, i4⟩ := ih
      refine ⟨?_, ?_, ?_, ?_⟩
      · intro x hx; rcases List.mem_cons.mp hx with rfl | hx; exacts [hab.1, i1 x hx]
      · intro x hx; rcases List.mem_cons.mp hx with rfl | hx; exacts [hab.2.1, i2 x hx]
      · intro h x hx
        rcases List.mem_cons.mp hx with rfl | hx
        · rw [← hab.2.2.1]; exact h a (by simp)
        · exact i3 (fun y hy => h y (by simp [hy])) x hx
      · have hr : ∀ s, siteRows nc names procs a s = siteRows nc names procs' b s := by
          intro s
          unfold siteRows
          rw [hp, hab.2.2.2.2, hab.2.2.2.1]
        unfold observedRows at *
        by_cases hst : a.step % I = 0
        · rw [List.filter_cons_of_pos (by simpa using hst), List.filter_cons_of_pos (by rw [← hab.2.2.1]; simpa using hst), List.flatMap_cons,
            List.flatMap_cons, i4]
          congr 2
          funext s
          exact hr s
        · rw [List.filter_cons_of_neg (by simpa using hst), List.filter_cons_of_neg (by rw [← hab.2.2.1]; simpa using hst), i4]
  have hrows := (key hcc).2.2.2
  cases hcc with
  | nil => exact absurd rfl hne
  | @cons a b l l' hab hll =>
    obtain ⟨k1, k2, k3, -⟩ := key hll
    obtain ⟨d, e⟩ := C115_file hnc hmax hI hn hs hu file hab.1 (h0 a (by simp)) l k1 hpos
    obtain ⟨d', e'⟩ := C115_file hnc hmax hI hn (hp ▸ hs) hu' file' hab.2.1 (hab.2.2.1 ▸ h0 a (by simp)) l' k2 (k3 hpos)
    rw [← hrows] at e'
    exact ⟨d, d', _, e, e'⟩

/-! ### A mesh of two cells -/

/-- A cell of the example: at `(x, 0, 0)`, owned or not. -/
private noncomputable def cellAt (x : ℝ) (own : Bool) : ObsCell := ⟨own, fun k => if k = 0 then x else 0⟩

/-- Two cells on one process. -/
private noncomputable def one : List (List ObsCell) := [[cellAt 1 true, cellAt 2 true]]

/-- The same cells on two processes, the second cell on the first process; each has the other's cell as ghost. -/
private noncomputable def two : List (List ObsCell) := [[cellAt 1 false, cellAt 2 true], [cellAt 1 true, cellAt 2 false]]

private noncomputable def uOne : List (Arr ℝ) := [⟨6, fun i => if i < 3 then 10 else 20⟩]

private noncomputable def uTwo : List (Arr ℝ) := [⟨3, fun _ => 20⟩, ⟨3, fun _ => 10⟩]

private def exNames : List Str := [['h'], ['u'], ['v']]

private theorem fit_one : ObsFits 3 one uOne := by simp [ObsFits, one, uOne, cellAt]

private theorem fit_two : ObsFits 3 two uTwo := by simp [ObsFits, two, uTwo, cellAt]

private theorem cells_one : globalCells one = [cellAt 1 true, cellAt 2 true] := by simp [globalCells, one, cellAt]

private theorem cells_two : globalCells two = [cellAt 2 true, cellAt 1 true] := by simp [globalCells, two, cellAt]

example : (initObs 3 two uTwo [1, 0]).isSome := (C115_accepted (by norm_num) fit_two [1, 0]).2 (by rw [cells_two]; simp)

example : ¬ (initObs 3 two uTwo [2]).isSome := fun h => by
  have := (C115_accepted (by norm_num) fit_two [2]).1 h 2 (by simp)
  rw [cells_two] at this
  simp at this

private theorem states_two : globalStates 3 uTwo = [fun c => if c < 3 then 20 else 0, fun c => if c < 3 then 10 else 0] := by simp [globalStates, uTwo]

private theorem states_one : globalStates 3 uOne = [fun c => if c < 3 then 10 else 0, fun c => if c < 3 then 20 else 0] := by
  have h : (6 : ℕ) / 3 = 2 := by norm_num
  unfold globalStates uOne
  simp only [List.flatMap_cons, List.flatMap_nil, List.append_nil, h, List.range_succ, List.range_zero, List.nil_append,
    List.map_cons, List.map_nil, List.cons_append]
  congr 1
  · funext c
    by_cases hc : c < 3 <;> simp [hc]
  · congr 1
    funext c
    by_cases hc : c < 3 <;> simp [hc]

private theorem rows_two (t : ℝ) (k : ℕ) : siteRows 3 exNames two ⟨k, t, uTwo⟩ 0 =
    [.row t 2 0 0 ['h'] 20, .row t 2 0 0 ['u'] 20, .row t 2 0 0 ['v'] 20] := by
  unfold siteRows
  rw [cells_two, states_two]
  simp [cellAt, exNames, List.range_succ]

private theorem rows_one (t : ℝ) (k : ℕ) : siteRows 3 exNames one ⟨k, t, uOne⟩ 0 =
    [.row t 1 0 0 ['h'] 10, .row t 1 0 0 ['u'] 10, .row t 1 0 0 ['v'] 10] := by
  unfold siteRows
  rw [cells_one, states_one]
  simp [cellAt, exNames, List.range_succ]

example : ∃ d, obsRun 2 3 exNames two [0] uTwo [] [⟨0, 0, uTwo⟩, ⟨1, 5, uTwo⟩, ⟨2, 10, uTwo⟩] =
    some (d, [.header, .row 0 2 0 0 ['h'] 20, .row 0 2 0 0 ['u'] 20, .row 0 2 0 0 ['v'] 20,
      .row 10 2 0 0 ['h'] 20, .row 10 2 0 0 ['u'] 20, .row 10 2 0 0 ['v'] 20]) := by
  obtain ⟨d, e⟩ := C115_file (nc := 3) (I := 2) (names := exNames) (procs := two) (sites := [0]) (u := uTwo) (by norm_num)
    (by unfold maxFieldComponents; norm_num) (by norm_num) (by simp [exNames]) (by rw [cells_two]; simp) fit_two [] (a := ⟨0, 0, uTwo⟩) fit_two rfl
    [⟨1, 5, uTwo⟩, ⟨2, 10, uTwo⟩] (by simp [fit_two]) (by simp)
  refine ⟨d, e.trans ?_⟩
  simp [observedRows, rows_two]

example : ∃ d, obsRun 1 3 exNames two [0] uTwo [.header] [⟨7, 5, uTwo⟩] =
    some (d, [.header, .row 5 2 0 0 ['h'] 20, .row 5 2 0 0 ['u'] 20, .row 5 2 0 0 ['v'] 20]) := by
  obtain ⟨d, e⟩ := C115_kept (nc := 3) (I := 1) (names := exNames) (procs := two) (sites := [0]) (u := uTwo) (by norm_num)
    (by unfold maxFieldComponents; norm_num) (by norm_num) (by simp [exNames]) (by rw [cells_two]; simp) fit_two [.header]
    [⟨7, 5, uTwo⟩] (by simp [fit_two]) (by simp)
  refine ⟨d, e.trans ?_⟩
  simp [observedRows, rows_two]

example : (observedRows 1 3 exNames two [0, 1] [⟨0, 0, uTwo⟩, ⟨1, 5, uTwo⟩]).length = 12 := by
  rw [C115_count (by norm_num) (by rw [cells_two]; simp) _ (by simp [fit_two])]
  simp

/-- The two cells on two processes in the order of the undivided mesh. -/
private noncomputable def two' : List (List ObsCell) := [[cellAt 1 true, cellAt 2 false], [cellAt 1 false, cellAt 2 true]]

example : ∃ d d' f, obsRun 1 3 exNames one [0] uOne [] [⟨0, 0, uOne⟩] = some (d, f) ∧
    obsRun 1 3 exNames two' [0] [⟨3, fun _ => 10⟩, ⟨3, fun _ => 20⟩] [] [⟨0, 0, [⟨3, fun _ => 10⟩, ⟨3, fun _ => 20⟩]⟩] = some (d', f) := by
  have hfit : ObsFits 3 two' [⟨3, fun _ => 10⟩, ⟨3, fun _ => 20⟩] := by simp [ObsFits, two', cellAt]
  refine C115_processes_partial (by norm_num) (by unfold maxFieldComponents; norm_num) (by norm_num) (by simp [exNames])
    (by rw [cells_one]; simp [globalCells, two', cellAt]) (by rw [cells_one]; simp) fit_one hfit [] []
    (.cons ⟨fit_one, hfit, rfl, rfl, by rw [states_one]; simp [globalStates]⟩ .nil) (by simp) (by simp) (by simp)

/-- C115 fails: the cell that a number in the configuration selects depends on the division of the mesh among the processes. A mesh of two cells, in the same
state, with the same configuration: on one process the file shows the depth 10 at the first cell, on two processes the depth 20 at the other one. -/
theorem C115_numbering_violated : ∃ (procs procs' : List (List ObsCell)) (u u' : List (Arr ℝ)) (names : List Str) (d d' : ObsData)
    (f f' : List ObsLine), (globalCells procs).Perm (globalCells procs') ∧ ObsFits 3 procs u ∧ ObsFits 3 procs' u' ∧
    ((globalCells procs).zip (globalStates 3 u)).Perm ((globalCells procs').zip (globalStates 3 u')) ∧
    obsRun 1 3 names procs [0] u [] [⟨0, 0, u⟩] = some (d, f) ∧ obsRun 1 3 names procs' [0] u' [] [⟨0, 0, u'⟩] = some (d', f') ∧ f ≠ f' := by
  obtain ⟨d, e⟩ := C115_file (nc := 3) (I := 1) (names := exNames) (procs := one) (sites := [0]) (u := uOne) (by norm_num)
    (by unfold maxFieldComponents; norm_num) (by norm_num) (by simp [exNames]) (by rw [cells_one]; simp) fit_one [] (a := ⟨0, 0, uOne⟩) fit_one rfl
    [] (by simp) (by simp)
  obtain ⟨d', e'⟩ := C115_file (nc := 3) (I := 1) (names := exNames) (procs := two) (sites := [0]) (u := uTwo) (by norm_num)
    (by unfold maxFieldComponents; norm_num) (by norm_num) (by simp [exNames]) (by rw [cells_two]; simp) fit_two [] (a := ⟨0, 0, uTwo⟩) fit_two rfl
    [] (by simp) (by simp)
  refine ⟨one, two, uOne, uTwo, exNames, d, d', _, _, ?_, fit_one, fit_two, ?_, e, e', ?_⟩
  · rw [cells_one, cells_two]; exact List.Perm.swap _ _ _
  · rw [cells_one, cells_two, states_two]
    rw [states_one]
    exact List.Perm.swap _ _ _
  · simp [observedRows, rows_one, rows_two]

end RDy
