import Verif.Model.Checkpoint

/-!
Model of the entries that the program itself adds to PETSc's options database, and of the settings that
options override (`/repo/src/yaml_input.c:1379-1467`).
-/

namespace RDy

/-- The entries of the options database that matter here (`none`: not present):
`-dm_plex_filename`, `-ts_monitor_solution`, `-ts_monitor_solution_interval`, `-viewer_cgns_batch_size`,
`-checkpoint_format` (`/repo/src/yaml_input.c:1389-1461`). The database belongs to the process and not to
a simulation. Simplification: the options about refinement and distribution are left out. -/
structure OptionsDb where
  plexFile : Option Str
  monitor : Option Str
  interval : Option Str
  batch : Option Str
  ckFormat : Option Str

/-- `/repo/include/private/rdyconfigimpl.h:193`. -/
inductive OutFormat
  | none | binary | xdmf | cgns
  deriving DecidableEq

/-- The settings that matter (`rdy->config.grid.file`, `output.format`, `output.output_interval`,
`output.batch_size`, `checkpoint.interval`, `checkpoint.format`); `cgnsFile` is what
`DetermineOutputFile` gives at `/repo/src/yaml_input.c:1426`. -/
structure OptCfg where
  gridFile : Str
  format : OutFormat
  outputInterval : ℕ
  batchSize : ℕ
  cgnsFile : Str
  ckInterval : ℕ
  ckFormat : CkFormat

/-- `%d` of a number that is not negative (`/repo/src/yaml_input.c:1402`, `:1451`, `:1460`). -/
def showNat (n : ℕ) : Str := (decimal n).map digitChar

/-- `/repo/src/yaml_input.c:1389`. -/
def setMesh (c : OptCfg) (o : OptionsDb) : OptionsDb :=
  if c.gridFile ≠ [] then { o with plexFile := some c.gridFile } else o

/-- `/repo/src/yaml_input.c:1399-1405`, `:1448-1454`. -/
def setInterval (c : OptCfg) (o : OptionsDb) : OptionsDb :=
  if 0 < c.outputInterval ∧ c.format ≠ .xdmf ∧ o.interval = none then
    { o with interval := some (showNat c.outputInterval) }
  else o

/-- `/repo/src/yaml_input.c:1408-1430`: the value is read into a buffer of 128 bytes; the value that is
set is printed into one of which 128 bytes are used. -/
def overrideFormat (c : OptCfg) (o : OptionsDb) : OptCfg × OptionsDb :=
  match o.monitor with
  | some v =>
    if contains "cgns".toList (v.take 127) then ({ c with format := .cgns }, o)
    else if contains "xdmf".toList (v.take 127) then ({ c with format := .xdmf }, o)
    else if contains "binary".toList (v.take 127) then ({ c with format := .binary }, o)
    else (c, o)
  | none =>
    if c.format = .cgns then (c, { o with monitor := some (("cgns:".toList ++ c.cgnsFile).take 127) })
    else (c, o)

/-- `/repo/src/yaml_input.c:1433-1445`: a buffer of 16 bytes. -/
def overrideCheckpoint (c : OptCfg) (o : OptionsDb) : Res OptCfg :=
  if c.ckInterval ≠ 0 then
    match o.ckFormat with
    | none => .ok c
    | some v =>
      if v.take 15 = "binary".toList then .ok { c with ckFormat := .binary }
      else if v.take 15 = "hdf5".toList then .ok { c with ckFormat := .hdf5 }
      else .error
  else .ok c

/-- `/repo/src/yaml_input.c:1457-1463`. -/
def setBatch (c : OptCfg) (o : OptionsDb) : OptionsDb :=
  if c.format = .cgns ∧ o.batch = none then { o with batch := some (showNat c.batchSize) } else o

/-- `SetAdditionalOptions` (`/repo/src/yaml_input.c:1381-1467`): the settings and the database
afterwards. -/
def setAdditionalOptions (c : OptCfg) (o : OptionsDb) : Res (OptCfg × OptionsDb) :=
  match overrideCheckpoint (overrideFormat c (setInterval c (setMesh c o))).1
      (overrideFormat c (setInterval c (setMesh c o))).2 with
  | .ok c' => .ok (c', setBatch c' (setInterval c' (overrideFormat c (setInterval c (setMesh c o))).2))
  | .error => .error
  | .ub => .ub

end RDy
