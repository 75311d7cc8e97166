import Verif.Model.Output
import Verif.Model.Config

/-!
Model of the text of the configuration file before it is parsed, of the prefix of output files, and of
the options that the program sets itself (`/repo/src/yaml_input.c:1379-1591`).
-/

namespace RDy

/-- `strstr(s, pat)` (called at `/repo/src/yaml_input.c:1509`, `:1527`, `:1556`): the position of the
first occurrence in the string that ends with the first NUL character (or with the list); `pat` contains
no NUL. -/
def strstr (pat : Str) : Str → Option ℕ
  | [] => if pat = [] then some 0 else none
  | c :: s =>
    if pat.isPrefixOf (c :: s) then some 0
    else if c = '\x00' then none
    else (strstr pat s).map (· + 1)

/-- `/repo/src/yaml_input.c:1507-1515`: the number of occurrences found from `p` on, each search
beginning after the previous occurrence. `fuel` bounds the number of searches; the length of the text plus
one is enough for a pattern that is not empty. -/
def countOccurrences (pat : Str) : ℕ → Str → ℕ
  | 0, _ => 0
  | fuel + 1, p =>
    match strstr pat p with
    | none => 0
    | some k => countOccurrences pat fuel (p.drop (k + pat.length)) + 1

/-- `/repo/src/yaml_input.c:1500-1516`: the size computed beforehand and the number of substitutions. -/
def contentSize (subs : List (Str × Str)) (raw : Str) : ℤ × ℕ :=
  subs.foldl (fun a s =>
    (a.1 + (countOccurrences s.1 (raw.length + 1) raw : ℤ) * ((s.2.length : ℤ) - (s.1.length : ℤ)),
      a.2 + countOccurrences s.1 (raw.length + 1) raw)) ((raw.length : ℤ), 0)

/-- `memcpy(q, …)` into the buffer with `cap` bytes, `out` being the bytes written so far
(`/repo/src/yaml_input.c:1529-1536`): undefined beyond the end. -/
def appendTo (cap : ℕ) (out piece : Str) : Res Str :=
  if out.length + piece.length ≤ cap then .ok (out ++ piece) else .ub

/-- `/repo/src/yaml_input.c:1525-1539`: copying with substitution of one pattern. -/
def copyPass (pat sub : Str) (cap : ℕ) : ℕ → Str → Str → Res Str
  | 0, _, out => .ok out
  | fuel + 1, p, out =>
    match strstr pat p with
    | some k =>
      match appendTo cap out (p.take k) with
      | .ok out1 =>
        match appendTo cap out1 sub with
        | .ok out2 => copyPass pat sub cap fuel (p.drop (k + pat.length)) out2
        | .error => .error
        | .ub => .ub
      | .error => .error
      | .ub => .ub
    | none => appendTo cap out p

/-- `/repo/src/yaml_input.c:1521-1541`: one pass for each pattern; each begins again with the raw text and
at the start of the buffer (`buf` is its contents from earlier passes), and its length must be `size`. -/
def copyPasses (raw : Str) (size : ℤ) : List (Str × Str) → Str → Res Str
  | [], buf => .ok buf
  | s :: l, _ =>
    match copyPass s.1 s.2 (size + 1).toNat (raw.length + 1) raw [] with
    | .ok out => if (out.length : ℤ) = size then copyPasses raw size l out else .error
    | .error => .error
    | .ub => .ub

/-- `ReadAndSubstitute` (`/repo/src/yaml_input.c:1483-1549`) for the contents `raw` of the file: the text
that is parsed. A size below -1 cannot be allocated. Simplification: integers do not overflow. -/
def readAndSubstitute (subs : List (Str × Str)) (raw : Str) : Res Str :=
  if (contentSize subs raw).2 > 0 then
    if (contentSize subs raw).1 + 1 < 0 then .error
    else copyPasses raw (contentSize subs raw).1 subs []
  else .ok raw

/-- The table (`/repo/src/yaml_input.c:1475-1478`); `idType` is `PETSC_ID_TYPE`, a macro of the build. -/
def substitutions (idType : Str) : List (Str × Str) := [("${PETSC_ID_TYPE}".toList, idType)]

/-- `ReadAndBroadcastConfigFile` (`/repo/src/yaml_input.c:1571-1591`): the text on process `rank`. The
processes other than 0 get the bytes that were broadcast (contract of `MPI_Bcast`). -/
def configText (idType raw : Str) (_rank : ℕ) : Res Str := readAndSubstitute (substitutions idType) raw

/-- `DetermineConfigPrefix` (`/repo/src/yaml_input.c:1552-1567`). -/
def configPrefix (name : Str) : Str :=
  match strstr ".yaml".toList name with
  | some k => name.take k
  | none =>
    match strstr ".yml".toList name with
    | some k => name.take k
    | none => name

end RDy
