import Verif.Model.Options
import Mathlib.Tactic

/-!
C90: options given by the user take precedence over the configuration file, which determines everything
else.
-/

namespace RDy

/-- Specification: what the user's `-ts_monitor_solution` asks for, if anything. -/
def askedFormat (v : Str) : Option OutFormat :=
  if "cgns".toList <:+: v then some .cgns
  else if "xdmf".toList <:+: v then some .xdmf
  else if "binary".toList <:+: v then some .binary
  else none

theorem contains_iff (sub v : Str) : contains sub v = true ↔ sub <:+: v := by
  unfold contains
  rw [List.any_eq_true]
  constructor
  · rintro ⟨t, ht, hp⟩
    rw [List.isPrefixOf_iff_prefix] at hp
    exact hp.isInfix.trans ((List.mem_tails _ _).1 ht).isInfix
  · rintro ⟨a, b, rfl⟩
    refine ⟨sub ++ b, ?_, ?_⟩
    · rw [List.mem_tails, List.append_assoc]; exact List.suffix_append _ _
    · rw [List.isPrefixOf_iff_prefix]; exact List.prefix_append _ _

theorem setMesh_other (c : OptCfg) (o : OptionsDb) :
    (setMesh c o).monitor = o.monitor ∧ (setMesh c o).interval = o.interval ∧
    (setMesh c o).batch = o.batch ∧ (setMesh c o).ckFormat = o.ckFormat := by
  unfold setMesh
  by_cases h : c.gridFile ≠ []
  · rw [if_pos h]; exact ⟨rfl, rfl, rfl, rfl⟩
  · rw [if_neg h]; exact ⟨rfl, rfl, rfl, rfl⟩

theorem setInterval_other (c : OptCfg) (o : OptionsDb) :
    (setInterval c o).monitor = o.monitor ∧ (setInterval c o).plexFile = o.plexFile ∧
    (setInterval c o).batch = o.batch ∧ (setInterval c o).ckFormat = o.ckFormat := by
  unfold setInterval
  by_cases h : 0 < c.outputInterval ∧ c.format ≠ .xdmf ∧ o.interval = none
  · rw [if_pos h]; exact ⟨rfl, rfl, rfl, rfl⟩
  · rw [if_neg h]; exact ⟨rfl, rfl, rfl, rfl⟩

theorem setInterval_given (c : OptCfg) (o : OptionsDb) (v : Str) (h : o.interval = some v) :
    setInterval c o = o := by
  unfold setInterval
  rw [if_neg]
  rintro ⟨_, _, h2⟩
  rw [h] at h2
  simp at h2

theorem setInterval_interval (c : OptCfg) (o : OptionsDb) (h : o.interval = none)
    (h1 : 0 < c.outputInterval) (h2 : c.format ≠ .xdmf) :
    (setInterval c o).interval = some (showNat c.outputInterval) := by
  unfold setInterval
  rw [if_pos ⟨h1, h2, h⟩]

theorem setInterval_cases (c : OptCfg) (o : OptionsDb) :
    (setInterval c o).interval = o.interval ∨
    (o.interval = none ∧ (setInterval c o).interval = some (showNat c.outputInterval)) := by
  unfold setInterval
  by_cases h : 0 < c.outputInterval ∧ c.format ≠ .xdmf ∧ o.interval = none
  · rw [if_pos h]; exact Or.inr ⟨h.2.2, rfl⟩
  · rw [if_neg h]; exact Or.inl rfl

theorem setBatch_other (c : OptCfg) (o : OptionsDb) :
    (setBatch c o).monitor = o.monitor ∧ (setBatch c o).plexFile = o.plexFile ∧
    (setBatch c o).interval = o.interval ∧ (setBatch c o).ckFormat = o.ckFormat := by
  unfold setBatch
  by_cases h : c.format = .cgns ∧ o.batch = none
  · rw [if_pos h]; exact ⟨rfl, rfl, rfl, rfl⟩
  · rw [if_neg h]; exact ⟨rfl, rfl, rfl, rfl⟩

theorem overrideFormat_db (c : OptCfg) (o : OptionsDb) :
    (overrideFormat c o).2.plexFile = o.plexFile ∧ (overrideFormat c o).2.interval = o.interval ∧
    (overrideFormat c o).2.batch = o.batch ∧ (overrideFormat c o).2.ckFormat = o.ckFormat ∧
    ((overrideFormat c o).2.monitor = o.monitor ∨ (o.monitor = none ∧ c.format = .cgns ∧
      (overrideFormat c o).2.monitor = some (("cgns:".toList ++ c.cgnsFile).take 127))) := by
  unfold overrideFormat
  rcases hm : o.monitor with _ | v
  · simp only
    by_cases h : c.format = .cgns
    · rw [if_pos h]; exact ⟨rfl, rfl, rfl, rfl, Or.inr ⟨trivial, h, rfl⟩⟩
    · rw [if_neg h]; exact ⟨rfl, rfl, rfl, rfl, Or.inl hm⟩
  · simp only
    split_ifs <;> exact ⟨rfl, rfl, rfl, rfl, Or.inl hm⟩

theorem overrideFormat_cfg (c : OptCfg) (o : OptionsDb) :
    (overrideFormat c o).1 = { c with format := (overrideFormat c o).1.format } := by
  unfold overrideFormat
  rcases o.monitor with _ | v
  · simp only
    by_cases h : c.format = .cgns
    · rw [if_pos h]
    · rw [if_neg h]
  · simp only
    split_ifs <;> rfl

theorem overrideFormat_format (c : OptCfg) (o : OptionsDb) (h : ∀ v, o.monitor = some v → v.length ≤ 127) :
    (overrideFormat c o).1.format = (o.monitor.bind askedFormat).getD c.format := by
  unfold overrideFormat
  rcases hm : o.monitor with _ | v
  · simp only [Option.bind_none, Option.getD_none]
    by_cases h : c.format = .cgns
    · rw [if_pos h]
    · rw [if_neg h]
  · have hv := h v hm
    simp only [Option.bind_some, List.take_of_length_le hv]
    unfold askedFormat
    by_cases h1 : "cgns".toList <:+: v
    · rw [if_pos ((contains_iff _ _).2 h1), if_pos h1]; rfl
    rw [if_neg (fun hh => h1 ((contains_iff _ _).1 hh)), if_neg h1]
    by_cases h2 : "xdmf".toList <:+: v
    · rw [if_pos ((contains_iff _ _).2 h2), if_pos h2]; rfl
    rw [if_neg (fun hh => h2 ((contains_iff _ _).1 hh)), if_neg h2]
    by_cases h3 : "binary".toList <:+: v
    · rw [if_pos ((contains_iff _ _).2 h3), if_pos h3]; rfl
    rw [if_neg (fun hh => h3 ((contains_iff _ _).1 hh)), if_neg h3]
    rfl

theorem overrideCheckpoint_other (c c' : OptCfg) (o : OptionsDb) (h : overrideCheckpoint c o = .ok c') :
    c' = { c with ckFormat := c'.ckFormat } := by
  unfold overrideCheckpoint at h
  by_cases h0 : c.ckInterval ≠ 0
  · rw [if_pos h0] at h
    rcases hv : o.ckFormat with _ | v
    · rw [hv] at h
      dsimp only at h
      rw [Res.ok.injEq] at h
      subst h; rfl
    · rw [hv] at h
      dsimp only at h
      by_cases h1 : v.take 15 = "binary".toList
      · rw [if_pos h1, Res.ok.injEq] at h
        subst h; rfl
      · rw [if_neg h1] at h
        by_cases h2 : v.take 15 = "hdf5".toList
        · rw [if_pos h2, Res.ok.injEq] at h
          subst h; rfl
        · rw [if_neg h2] at h
          simp at h
  · rw [if_neg h0, Res.ok.injEq] at h
    subst h; rfl

theorem set_ok {c c' : OptCfg} {o o' : OptionsDb} (h : setAdditionalOptions c o = .ok (c', o')) :
    overrideCheckpoint (overrideFormat c (setInterval c (setMesh c o))).1
      (overrideFormat c (setInterval c (setMesh c o))).2 = .ok c' ∧
    o' = setBatch c' (setInterval c' (overrideFormat c (setInterval c (setMesh c o))).2) := by
  unfold setAdditionalOptions at h
  rcases hc : overrideCheckpoint (overrideFormat c (setInterval c (setMesh c o))).1
    (overrideFormat c (setInterval c (setMesh c o))).2 with c1 | _ | _
  · rw [hc] at h
    simp only [Res.ok.injEq, Prod.mk.injEq] at h
    obtain ⟨rfl, rfl⟩ := h
    exact ⟨rfl, rfl⟩
  · rw [hc] at h; simp at h
  · rw [hc] at h; simp at h

/-- A configuration for the examples. -/
def cfg0 : OptCfg := ⟨"mesh.exo".toList, .cgns, 10, 5, "output/run-%d.cgns".toList, 2, .binary⟩

/-- No options. -/
def noDb : OptionsDb := ⟨none, none, none, none, none⟩

/-- C90: what the user gives for the viewer, the interval and the batch size is left as it is. -/
theorem C90_user_wins (c c' : OptCfg) (o o' : OptionsDb) (h : setAdditionalOptions c o = .ok (c', o')) :
    (∀ v, o.monitor = some v → o'.monitor = some v) ∧
    (∀ v, o.interval = some v → o'.interval = some v) ∧
    (∀ v, o.batch = some v → o'.batch = some v) ∧ o'.ckFormat = o.ckFormat := by
  obtain ⟨_, rfl⟩ := set_ok h
  obtain ⟨m1, m2, m3, m4⟩ := setMesh_other c o
  obtain ⟨i1, i2, i3, i4⟩ := setInterval_other c (setMesh c o)
  obtain ⟨f1, f2, f3, f4, f5⟩ := overrideFormat_db c (setInterval c (setMesh c o))
  obtain ⟨j1, j2, j3, j4⟩ := setInterval_other c' (overrideFormat c (setInterval c (setMesh c o))).2
  obtain ⟨b1, b2, b3, b4⟩ := setBatch_other c'
    (setInterval c' (overrideFormat c (setInterval c (setMesh c o))).2)
  refine ⟨?_, ?_, ?_, ?_⟩
  · intro v hv
    rw [b1, j1]
    rcases f5 with e | ⟨e, _⟩
    · rw [e, i1, m1, hv]
    · rw [i1, m1, hv] at e; simp at e
  · intro v hv
    have e1 : (setInterval c (setMesh c o)).interval = some v := by
      rw [setInterval_given c _ v (by rw [m2, hv]), m2, hv]
    rw [b3, setInterval_given c' _ v (by rw [f2, e1]), f2, e1]
  · intro v hv
    have e : (setInterval c' (overrideFormat c (setInterval c (setMesh c o))).2).batch = some v := by
      rw [j3, f3, i3, m3, hv]
    unfold setBatch
    rw [if_neg (by rintro ⟨_, h2⟩; rw [e] at h2; simp at h2), e]
  · rw [b4, j4, f4, i4, m4]

example : ∃ c' o', setAdditionalOptions cfg0 { noDb with interval := some "7".toList } = .ok (c', o') ∧
    o'.interval = some "7".toList := by
  have h : ∃ c' o', setAdditionalOptions cfg0 { noDb with interval := some "7".toList } = .ok (c', o') :=
    ⟨_, _, rfl⟩
  obtain ⟨c', o', h⟩ := h
  exact ⟨c', o', h, (C90_user_wins _ _ _ _ h).2.1 _ rfl⟩

/-- C90: what the user does not give comes from the configuration file: the interval of output in every
format but XDMF (which has its own monitor), the batch size with CGNS, and always the mesh. -/
theorem C90_configured (c c' : OptCfg) (o o' : OptionsDb) (h : setAdditionalOptions c o = .ok (c', o')) :
    (c.gridFile ≠ [] → o'.plexFile = some c.gridFile) ∧
    (o.interval = none → 0 < c.outputInterval → c'.format ≠ .xdmf →
      o'.interval = some (showNat c.outputInterval)) ∧
    (o.batch = none → c'.format = .cgns → o'.batch = some (showNat c.batchSize)) ∧
    (c'.outputInterval = c.outputInterval ∧ c'.batchSize = c.batchSize ∧ c'.gridFile = c.gridFile) := by
  obtain ⟨hck, rfl⟩ := set_ok h
  have hc' := overrideCheckpoint_other _ _ _ hck
  rw [overrideFormat_cfg c (setInterval c (setMesh c o))] at hc'
  have q1 : c'.outputInterval = c.outputInterval := by rw [hc']
  have q2 : c'.batchSize = c.batchSize := by rw [hc']
  have q3 : c'.gridFile = c.gridFile := by rw [hc']
  obtain ⟨m1, m2, m3, m4⟩ := setMesh_other c o
  obtain ⟨i1, i2, i3, i4⟩ := setInterval_other c (setMesh c o)
  obtain ⟨f1, f2, f3, f4, f5⟩ := overrideFormat_db c (setInterval c (setMesh c o))
  obtain ⟨j1, j2, j3, j4⟩ := setInterval_other c' (overrideFormat c (setInterval c (setMesh c o))).2
  obtain ⟨b1, b2, b3, b4⟩ := setBatch_other c'
    (setInterval c' (overrideFormat c (setInterval c (setMesh c o))).2)
  refine ⟨?_, ?_, ?_, q1, q2, q3⟩
  · intro hg
    rw [b2, j2, f1, i2]
    unfold setMesh
    rw [if_pos hg]
  · intro hi hn hx
    rw [b3]
    rcases setInterval_cases c (setMesh c o) with e | ⟨_, e⟩
    · have e' : (overrideFormat c (setInterval c (setMesh c o))).2.interval = none := by
        rw [f2, e, m2, hi]
      rw [setInterval_interval c' _ e' (by rw [q1]; exact hn) hx, q1]
    · have e' := setInterval_given c' (overrideFormat c (setInterval c (setMesh c o))).2
        (showNat c.outputInterval) (by rw [f2, e])
      rw [e', f2, e]
  · intro hb hf
    unfold setBatch
    rw [if_pos ⟨hf, by rw [j3, f3, i3, m3, hb]⟩, q2]

example : ∃ c' o', setAdditionalOptions cfg0 noDb = .ok (c', o') ∧
    o'.plexFile = some "mesh.exo".toList ∧ o'.interval = some (showNat 10) ∧
    o'.batch = some (showNat 5) := by
  have h : ∃ c' o', setAdditionalOptions cfg0 noDb = .ok (c', o') ∧ c'.format = .cgns := ⟨_, _, rfl, rfl⟩
  obtain ⟨c', o', h, hf⟩ := h
  have hc := C90_configured _ _ _ _ h
  exact ⟨c', o', h, hc.1 (by decide), hc.2.1 rfl (by decide) (by rw [hf]; decide), hc.2.2.1 rfl hf⟩

/-- C90: the format of output is the one mentioned by `-ts_monitor_solution`, else the configured one. -/
theorem C90_format (c c' : OptCfg) (o o' : OptionsDb) (h : setAdditionalOptions c o = .ok (c', o'))
    (hl : ∀ v, o.monitor = some v → v.length ≤ 127) :
    c'.format = (o.monitor.bind askedFormat).getD c.format := by
  obtain ⟨hck, _⟩ := set_ok h
  have hc' := overrideCheckpoint_other _ _ _ hck
  obtain ⟨m1, _⟩ := setMesh_other c o
  obtain ⟨i1, _⟩ := setInterval_other c (setMesh c o)
  have e : c'.format = (overrideFormat c (setInterval c (setMesh c o))).1.format := by rw [hc']
  rw [e, overrideFormat_format c _ (by rw [i1, m1]; exact hl), i1, m1]

example : ∃ c' o', setAdditionalOptions cfg0 { noDb with monitor := some "binary:x.bin".toList } =
    .ok (c', o') ∧ c'.format = .binary := by
  have h : ∃ c' o', setAdditionalOptions cfg0 { noDb with monitor := some "binary:x.bin".toList } =
    .ok (c', o') := ⟨_, _, rfl⟩
  obtain ⟨c', o', h⟩ := h
  refine ⟨c', o', h, ?_⟩
  rw [C90_format _ _ _ _ h (by intro v hv; simp at hv; subst hv; decide)]
  decide

/-- C90: `-checkpoint_format` chooses the format of checkpoints if checkpoints are written; other values
than the two formats are refused. -/
theorem C90_checkpoint (c : OptCfg) (o : OptionsDb) (hi : c.ckInterval ≠ 0)
    (hl : ∀ v, o.ckFormat = some v → v.length ≤ 15) (f : CkFormat) :
    (∃ c' o', setAdditionalOptions c o = .ok (c', o') ∧ c'.ckFormat = f) ↔
      (o.ckFormat = none ∧ c.ckFormat = f) ∨ (o.ckFormat = some "binary".toList ∧ f = .binary) ∨
      (o.ckFormat = some "hdf5".toList ∧ f = .hdf5) := by
  obtain ⟨m1, m2, m3, m4⟩ := setMesh_other c o
  obtain ⟨i1, i2, i3, i4⟩ := setInterval_other c (setMesh c o)
  obtain ⟨f1, f2, f3, f4, f5⟩ := overrideFormat_db c (setInterval c (setMesh c o))
  have fc := overrideFormat_cfg c (setInterval c (setMesh c o))
  have e1 : (overrideFormat c (setInterval c (setMesh c o))).1.ckInterval = c.ckInterval := by rw [fc]
  have e2 : (overrideFormat c (setInterval c (setMesh c o))).1.ckFormat = c.ckFormat := by rw [fc]
  have e3 : (overrideFormat c (setInterval c (setMesh c o))).2.ckFormat = o.ckFormat := by
    rw [f4, i4, m4]
  have key : (∃ c' o', setAdditionalOptions c o = .ok (c', o') ∧ c'.ckFormat = f) ↔
      ∃ c', overrideCheckpoint (overrideFormat c (setInterval c (setMesh c o))).1
        (overrideFormat c (setInterval c (setMesh c o))).2 = .ok c' ∧ c'.ckFormat = f := by
    constructor
    · rintro ⟨c', o', h1, h2⟩
      exact ⟨c', (set_ok h1).1, h2⟩
    · rintro ⟨c', h1, h2⟩
      refine ⟨c', setBatch c' (setInterval c' (overrideFormat c (setInterval c (setMesh c o))).2), ?_, h2⟩
      unfold setAdditionalOptions
      rw [h1]
  rw [key]
  generalize (overrideFormat c (setInterval c (setMesh c o))).1 = c1 at *
  generalize (overrideFormat c (setInterval c (setMesh c o))).2 = o1 at *
  unfold overrideCheckpoint
  rw [if_pos (by rw [e1]; exact hi), e3]
  have hne : "binary".toList ≠ "hdf5".toList := by decide
  generalize "binary".toList = s1 at *
  generalize "hdf5".toList = s2 at *
  rcases hv : o.ckFormat with _ | v
  · dsimp only
    constructor
    · rintro ⟨c', h1, h2⟩
      rw [Res.ok.injEq] at h1
      exact Or.inl ⟨rfl, by rw [← e2, h1, h2]⟩
    · rintro (⟨_, h⟩ | ⟨h, _⟩ | ⟨h, _⟩)
      · exact ⟨c1, rfl, by rw [e2, h]⟩
      · cases h
      · cases h
  · dsimp only
    rw [List.take_of_length_le (hl v hv)]
    by_cases h1 : v = s1
    · rw [if_pos h1]
      constructor
      · rintro ⟨c', h2, h3⟩
        rw [Res.ok.injEq] at h2
        exact Or.inr (Or.inl ⟨by rw [h1], by rw [← h3, ← h2]⟩)
      · rintro (⟨h, _⟩ | ⟨_, h⟩ | ⟨h, _⟩)
        · cases h
        · exact ⟨_, rfl, h.symm⟩
        · rw [Option.some.injEq, h1] at h
          exact absurd h hne
    · rw [if_neg h1]
      by_cases h2 : v = s2
      · rw [if_pos h2]
        constructor
        · rintro ⟨c', h4, h3⟩
          rw [Res.ok.injEq] at h4
          exact Or.inr (Or.inr ⟨by rw [h2], by rw [← h3, ← h4]⟩)
        · rintro (⟨h, _⟩ | ⟨h, _⟩ | ⟨_, h⟩)
          · cases h
          · rw [Option.some.injEq] at h
            exact absurd h h1
          · exact ⟨_, rfl, h.symm⟩
      · rw [if_neg h2]
        constructor
        · rintro ⟨c', h4, h3⟩
          cases h4
        · rintro (⟨h, _⟩ | ⟨h, _⟩ | ⟨h, _⟩)
          · cases h
          · rw [Option.some.injEq] at h
            exact absurd h h1
          · rw [Option.some.injEq] at h
            exact absurd h h2

example : ∃ c' o', setAdditionalOptions cfg0 { noDb with ckFormat := some "hdf5".toList } =
    .ok (c', o') ∧ c'.ckFormat = .hdf5 :=
  (C90_checkpoint cfg0 { noDb with ckFormat := some "hdf5".toList } (by decide)
    (by intro v hv; simp at hv; subst hv; decide) .hdf5).2 (Or.inr (Or.inr ⟨rfl, rfl⟩))

/-- C90 (CGNS files), the part that holds: the viewer gets the output file, if its name has at most 122
characters. What is missing: `C90_cgns_violated`. -/
theorem C90_cgns_partial (c c' : OptCfg) (o o' : OptionsDb) (h : setAdditionalOptions c o = .ok (c', o'))
    (hm : o.monitor = none) (hf : c.format = .cgns) (hl : c.cgnsFile.length ≤ 122) :
    o'.monitor = some ("cgns:".toList ++ c.cgnsFile) := by
  obtain ⟨_, rfl⟩ := set_ok h
  obtain ⟨m1, _⟩ := setMesh_other c o
  obtain ⟨i1, _⟩ := setInterval_other c (setMesh c o)
  obtain ⟨j1, _⟩ := setInterval_other c' (overrideFormat c (setInterval c (setMesh c o))).2
  obtain ⟨b1, _⟩ := setBatch_other c'
    (setInterval c' (overrideFormat c (setInterval c (setMesh c o))).2)
  rw [b1, j1]
  unfold overrideFormat
  rw [i1, m1, hm]
  simp only
  rw [if_pos hf, List.take_of_length_le]
  have : "cgns:".toList.length = 5 := by decide
  rw [List.length_append, this]
  omega

example : ∃ c' o', setAdditionalOptions cfg0 noDb = .ok (c', o') ∧
    o'.monitor = some "cgns:output/run-%d.cgns".toList := by
  have h : ∃ c' o', setAdditionalOptions cfg0 noDb = .ok (c', o') := ⟨_, _, rfl⟩
  obtain ⟨c', o', h⟩ := h
  exact ⟨c', o', h, C90_cgns_partial _ _ _ _ h rfl rfl (by decide)⟩

/-- C90 (violated): longer names are cut off without a message; two runs with different output
directories may write the same file. -/
theorem C90_cgns_violated (c d : OptCfg) (p a b : Str) (hp : p.length = 122) (hc : c.format = .cgns)
    (hd : d.format = .cgns) (ha : c.cgnsFile = p ++ a) (hb : d.cgnsFile = p ++ b) (o : OptionsDb)
    (hm : o.monitor = none) :
    (overrideFormat c o).2.monitor = some ("cgns:".toList ++ p) ∧
    (overrideFormat c o).2.monitor = (overrideFormat d o).2.monitor := by
  have h5 : ("cgns:".toList ++ p).length = 127 := by
    have : "cgns:".toList.length = 5 := by decide
    rw [List.length_append, this]; omega
  have h1 : ∀ (e : OptCfg) (x : Str), e.format = .cgns → e.cgnsFile = p ++ x →
      (overrideFormat e o).2.monitor = some ("cgns:".toList ++ p) := by
    intro e x he hx
    unfold overrideFormat
    rw [hm]
    simp only
    rw [if_pos he, hx, ← List.append_assoc, ← h5, List.take_left]
  exact ⟨h1 c a hc ha, (h1 c a hc ha).trans (h1 d b hd hb).symm⟩

example : (overrideFormat { cfg0 with cgnsFile := List.replicate 122 'd' ++ "a/x.cgns".toList } noDb).2.monitor =
    (overrideFormat { cfg0 with cgnsFile := List.replicate 122 'd' ++ "b/x.cgns".toList } noDb).2.monitor :=
  (C90_cgns_violated _ _ _ _ _ (by simp) rfl rfl rfl rfl noDb rfl).2

/-- C90 (several simulations in one process), the part that holds: after a simulation with XDMF output (or
none and no interval), another one with a mesh of its own finds the database as the user left it. What is
missing: `C90_second_run_violated`. -/
theorem C90_second_run_partial (c d c' : OptCfg) (o o' : OptionsDb) (hm : o.monitor = none)
    (hf : c.format = .xdmf ∨ (c.format = .none ∧ c.outputInterval = 0))
    (h : setAdditionalOptions c o = .ok (c', o')) (hd : d.gridFile ≠ []) :
    setAdditionalOptions d o' = setAdditionalOptions d o := by
  obtain ⟨hck, rfl⟩ := set_ok h
  have hc' := overrideCheckpoint_other _ _ _ hck
  rw [overrideFormat_cfg c (setInterval c (setMesh c o))] at hc'
  obtain ⟨m1, m2, m3, m4⟩ := setMesh_other c o
  have hnc : c.format ≠ .cgns := by
    rcases hf with hf | ⟨hf, _⟩ <;> rw [hf] <;> decide
  have hcond : ∀ (e : OptCfg) (x : OptionsDb), e.format = c.format → e.outputInterval = c.outputInterval →
      setInterval e x = x := by
    intro e x h1 h2
    unfold setInterval
    rw [if_neg]
    rintro ⟨a, b, _⟩
    rcases hf with hf | ⟨_, hf⟩
    · exact b (h1.trans hf)
    · rw [h2, hf] at a; exact lt_irrefl _ a
  have e0 := hcond c (setMesh c o) rfl rfl
  rw [e0] at hc' ⊢
  have e1 : overrideFormat c (setMesh c o) = (c, setMesh c o) := by
    unfold overrideFormat
    rw [m1, hm]
    simp only
    rw [if_neg hnc]
  rw [e1] at hc' ⊢
  have q1 : c'.format = c.format := by rw [hc']
  have q2 : c'.outputInterval = c.outputInterval := by rw [hc']
  simp only
  rw [hcond c' (setMesh c o) q1 q2]
  have e2 : setBatch c' (setMesh c o) = setMesh c o := by
    unfold setBatch
    rw [if_neg]
    rintro ⟨a, _⟩
    exact hnc (q1 ▸ a)
  rw [e2]
  have e3 : setMesh d (setMesh c o) = setMesh d o := by
    unfold setMesh
    rw [if_pos hd, if_pos hd]
    by_cases hg : c.gridFile ≠ []
    · rw [if_pos hg]
    · rw [if_neg hg]
  unfold setAdditionalOptions
  rw [e3]

example : ∃ c' o', setAdditionalOptions { cfg0 with format := .xdmf } noDb = .ok (c', o') ∧
    setAdditionalOptions cfg0 o' = setAdditionalOptions cfg0 noDb := by
  have h : ∃ c' o', setAdditionalOptions { cfg0 with format := .xdmf } noDb = .ok (c', o') := ⟨_, _, rfl⟩
  obtain ⟨c', o', h⟩ := h
  exact ⟨c', o', h, C90_second_run_partial { cfg0 with format := .xdmf } cfg0 c' noDb o' rfl (Or.inl rfl) h
    (by decide)⟩

/-- C90 (violated): what the program sets for one simulation looks like an option of the user to the next
simulation of the same process. Its output interval is that of the first one, and after a simulation with
CGNS output it writes CGNS output (to the files of the first one) whatever its configuration says. -/
theorem C90_second_run_violated (c d c1 d1 : OptCfg) (o1 o2 : OptionsDb)
    (hc : c.format = .cgns) (hci : 0 < c.outputInterval) (h1 : setAdditionalOptions c noDb = .ok (c1, o1))
    (h2 : setAdditionalOptions d o1 = .ok (d1, o2)) :
    o2.interval = some (showNat c.outputInterval) ∧ o2.monitor = o1.monitor ∧ d1.format = .cgns := by
  obtain ⟨_, i1, _, _⟩ := C90_configured _ _ _ _ h1
  have f1 := C90_format _ _ _ _ h1 (by intro v hv; simp [noDb] at hv)
  have f1' : c1.format = .cgns := by rw [f1]; simp [noDb, hc]
  have w := C90_user_wins _ _ _ _ h2
  have hi := i1 rfl hci (by rw [f1']; decide)
  obtain ⟨_, hm⟩ : ∃ v, o1.monitor = some v ∧ "cgns".toList <:+: v ∧ v.length ≤ 127 := by
    refine ⟨("cgns:".toList ++ c.cgnsFile).take 127, ?_, ?_, ?_⟩
    · obtain ⟨_, rfl⟩ := set_ok h1
      rw [(setBatch_other _ _).1, (setInterval_other _ _).1]
      unfold overrideFormat
      rw [(setInterval_other _ _).1, (setMesh_other _ _).1]
      simp only [noDb]
      rw [if_pos hc]
    · refine ⟨[], (":".toList ++ c.cgnsFile).take 123, ?_⟩
      have : "cgns:".toList ++ c.cgnsFile = 'c' :: 'g' :: 'n' :: 's' :: (":".toList ++ c.cgnsFile) := rfl
      rw [this]
      simp
    · rw [List.length_take]; omega
  refine ⟨w.2.1 _ hi, ?_, ?_⟩
  · rw [hm.1, w.1 _ hm.1]
  · rw [C90_format _ _ _ _ h2 (by intro v hv; rw [hm.1] at hv; simp at hv; subst hv; exact hm.2.2), hm.1]
    simp only [Option.bind_some]
    unfold askedFormat
    rw [if_pos hm.2.1]
    rfl

example : ∃ c1 o1 d1 o2, setAdditionalOptions cfg0 noDb = .ok (c1, o1) ∧
    setAdditionalOptions { cfg0 with format := .binary, outputInterval := 3 } o1 = .ok (d1, o2) ∧
    o2.interval = some (showNat 10) ∧ d1.format = .cgns := by
  have h : ∃ c1 o1 d1 o2, setAdditionalOptions cfg0 noDb = .ok (c1, o1) ∧
    setAdditionalOptions { cfg0 with format := .binary, outputInterval := 3 } o1 = .ok (d1, o2) :=
    ⟨_, _, _, _, rfl, rfl⟩
  obtain ⟨c1, o1, d1, o2, h1, h2⟩ := h
  have := C90_second_run_violated _ _ _ _ _ _ rfl (by decide) h1 h2
  exact ⟨c1, o1, d1, o2, h1, h2, this.1, this.2.2⟩

end RDy
