import Verif.Model.Output
import Mathlib.Logic.Function.Basic

/-!
# Creation of the directories for output and checkpoints

`CreateDirectory` of `/repo/src/rdyadvance.c:32-45` and its callers. The file system is a map from paths to what is there. In an ensemble the members run at the same time: their calls
of `mkdir` happen in an order that the program does not choose, which is an argument here.
-/

namespace RDy

/-- The names between the slashes of a path; `cur` is the part of the name read so far. What `mkdir` of `/repo/src/rdyadvance.c:37` makes of its argument (POSIX: empty names are skipped).
Simplified: the names `.` and `..` are not interpreted. -/
def pathParts : Str → Str → List Str
  | cur, [] => if cur = [] then [] else [cur]
  | cur, c :: cs =>
    if c = '/' then (if cur = [] then pathParts [] cs else cur :: pathParts [] cs) else pathParts (cur ++ [c]) cs

/-- A path, as `mkdir` of `/repo/src/rdyadvance.c:37` resolves it: from the root or from the working directory, and the names. Simplified: links, and the same place reached in both ways, are not
modelled. -/
def toPath (s : Str) : Bool × List Str := (decide (s.head? = some '/'), pathParts [] s)

/-- What a name stands for in the file system seen by `mkdir`, `/repo/src/rdyadvance.c:37`. -/
inductive FsNode
  | dir
  | file
  deriving DecidableEq

/-- The file system seen by `mkdir`, `/repo/src/rdyadvance.c:37`; `none`: nothing there. -/
abbrev FileSys := Bool × List Str → Option FsNode

/-- What `mkdir` of `/repo/src/rdyadvance.c:37-38` returns: success, `EEXIST`, another error. -/
inductive MkdirRes
  | made
  | there
  | failed
  deriving DecidableEq

/-- `mkdir(directory, 0755)` of `/repo/src/rdyadvance.c:37` (POSIX): the directory above must exist; a name that exists already, of whatever kind, gives `EEXIST`; the empty string is
`ENOENT`. Simplified: permissions, quotas and limits on names are not modelled. -/
def mkdirAt (fs : FileSys) (s : Str) : FileSys × MkdirRes :=
  if s = [] then (fs, .failed)
  else if (toPath s).2 = [] then (fs, .there)
  else if fs ((toPath s).1, (toPath s).2.dropLast) ≠ some .dir then (fs, .failed)
  else if fs (toPath s) ≠ none then (fs, .there)
  else (Function.update fs (toPath s) (some .dir), .made)

/-- `/repo/src/rdyadvance.c:32-45` `CreateDirectory`: one process calls `mkdir`, all of the communicator get its result, and the check of `:43` gives the same on all of them (`true`: it passes). -/
def createDirectory (fs : FileSys) (s : Str) : FileSys × Bool := ((mkdirAt fs s).1, decide ((mkdirAt fs s).2 ≠ .failed))

/-- The calls of `CreateDirectory` of the members (`/repo/src/rdyadvance.c:59`, `/repo/src/checkpoint.c:42`), one after the other in the order in which they happen, and what each member
gets. `mkdir` is atomic. -/
def createAll (fs : FileSys) : List Str → FileSys × List Bool
  | [] => (fs, [])
  | s :: t => ((createAll (createDirectory fs s).1 t).1, (createDirectory fs s).2 :: (createAll (createDirectory fs s).1 t).2)

/-- `/repo/src/rdyadvance.c:56-60` and `/repo/src/checkpoint.c:39-43`: in an ensemble the common directory first, by a process of the communicator of all members (which the broadcast of
`/repo/src/rdyadvance.c:40` lets no process pass before it was made), then that of every member. `order`: the directories of the members in the order of their calls. -/
def createDirs (fs : FileSys) (ensemble : Bool) (common : Str) (order : List Str) : FileSys × List Bool :=
  if ensemble = true then
    if (createDirectory fs common).2 = true then createAll (createDirectory fs common).1 order
    else ((createDirectory fs common).1, order.map fun _ => false)
  else createAll fs order

/-- `/repo/src/rdyadvance.c:48-63` `CreateOutputDirectory`, on all processes of the run: `members`, the names of the members (one for a run that is no ensemble) in the order of their calls.
Simplified: the name of the directory is computed for this simulation, which is so for the first one of a process (C07). -/
def createOutputDirs (fs : FileSys) (directory : Str) (size : ℕ) (members : List Str) : FileSys × List Bool :=
  createDirs fs (decide (size > 1)) directory (members.map fun m => outputDirOf ⟨directory, size, m⟩)

/-- `/repo/src/checkpoint.c:31-46` `CreateCheckpointDirectory`, likewise. -/
def createCheckpointDirs (fs : FileSys) (size : ℕ) (members : List Str) : FileSys × List Bool :=
  createDirs fs (decide (size > 1)) "checkpoints".toList (members.map fun m => checkpointDirOf ⟨[], size, m⟩)

end RDy
