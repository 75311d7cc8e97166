import Verif.Model.Lifecycle
import Verif.Model.Eta
import Mathlib.Logic.Function.Basic

/-!
# Several simulations in one process and the choice of the backend

Whether libCEED or PETSc evaluates the right-hand side is a variable of the process, `ceed_context` of `/repo/src/ceed.c:6`, set by every `RDySetup` from the option `-ceed`.
The operator of a simulation stores the data of its backend in a union (`/repo/include/private/rdyoperatorimpl.h:129-188`) without saying which of the two it holds. Every
function that looks into the union asks the variable of the process.
-/

namespace RDy

/-- `/repo/src/ceed.c:8-9` `CeedEnabled`. -/
def Proc.enabled (p : Proc) : Bool := p.ceedCtx.isSome

/-- A process and its simulations. For every `RDy` object: which member of the union of `/repo/include/private/rdyoperatorimpl.h:129-188` was written when the operator was made
(`true`: `ceed`); `none` if the object has no operator (`rdy->operator` is null). Simplified: nothing else of the simulations. -/
structure Sims where
  proc : Proc
  made : ℕ → Option Bool

/-- Calls on simulations of the process. `/repo/src/rdysetup.c:1373-1398`, `/repo/src/operator.c:421-470`, `:683-693`. -/
inductive SimOp
  /-- `RDySetup` (`/repo/src/rdysetup.c:1373`) of object `i`, the value of `-ceed` (empty: not given), the well-balancing and the number of sediment classes of its file -/
  | setup (i : ℕ) (ceed : List Char) (wb : WellBalancing) (classes : ℕ)
  /-- a call that looks into the operator: an evaluation (`/repo/src/operator.c:683`), a diagnostic (`:853`), a transfer of data (`:1211-1282`) -/
  | call (i : ℕ)
  /-- `RDyDestroy` (`/repo/src/rdycore.c:265-267`) -/
  | destroy (i : ℕ)

/-- What is seen of a call. `/repo/src/yaml_input.c:916-925`, `/repo/src/operator.c:683-693`. -/
inductive SimOut
  /-- set up, with libCEED or not -/
  | ready (ceed : Bool)
  /-- the configuration was refused -/
  | refused
  /-- done by libCEED or by PETSc -/
  | ran (ceed : Bool)
  /-- the object has no operator -/
  | early
  deriving DecidableEq

/-- `RDySetup`: `ReadConfigFile` (`/repo/src/rdysetup.c:1379`, with the check of `/repo/src/yaml_input.c:916-925`), `OverrideParameters` (`:1398`, `:106-132`), and `CreateOperator`,
which asks `CeedEnabled` (`/repo/src/operator.c:146`, `:274`). Simplified: the other checks are taken to pass; an object set up before gets a new operator. -/
def Sims.setup (s : Sims) (i : ℕ) (ceed : List Char) (wb : WellBalancing) (classes : ℕ) : Option (Sims × SimOut) :=
  if refusesBS2002 wb classes s.proc.enabled = true then some (s, .refused)
  else (s.proc.setCeed (some ceed)).map fun p => (⟨p, Function.update s.made i (some p.enabled)⟩, .ready p.enabled)

/-- A call that looks into the union. `/repo/src/operator.c:683-693` (likewise `:853-877`, `:1211-1282`). `none`: the member of the union that was not written is read, and its pointers
are followed (undefined). Simplified: a call on an object without operator is reported and does nothing. -/
def Sims.look (s : Sims) (i : ℕ) : Option SimOut :=
  match s.made i with
  | none => some .early
  | some b => if b = s.proc.enabled then some (.ran b) else none

/-- One call. `/repo/src/rdysetup.c:1373-1398`; `/repo/src/operator.c:683-693`; `/repo/src/rdycore.c:265-267` with `/repo/src/operator.c:421-470`. -/
def Sims.step (s : Sims) : SimOp → Option (Sims × SimOut)
  | .setup i r wb n => s.setup i r wb n
  | .call i => (s.look i).map fun o => (s, o)
  | .destroy i => (s.look i).map fun o => (⟨s.proc, Function.update s.made i none⟩, o)

/-- Calls one after the other, with what is seen of each. `/repo/src/rdysetup.c:1373-1398`; `/repo/src/operator.c:421-470`, `:683-693`. `none`: one of them is undefined. -/
def Sims.run (s : Sims) : List SimOp → Option (Sims × List SimOut)
  | [] => some (s, [])
  | op :: ops => (s.step op).bind fun r => (r.1.run ops).map fun t => (t.1, r.2 :: t.2)

/-- A process in which nothing was called, `/repo/src/ceed.c:5-6`. -/
def Sims.fresh : Sims := ⟨Proc.fresh, fun _ => none⟩

end RDy
