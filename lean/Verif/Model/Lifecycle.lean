import Mathlib.Data.List.Basic

/-!
Model of the process-wide state: library initialisation, the shutdown-function table, the Courant
number MPI objects and the CEED context
(`/repo/src/rdycore.c`, `/repo/src/operator.c`, `/repo/src/ceed.c`).
-/

namespace RDy

/-- Shutdown functions that can be registered with `RDyOnFinalize`. `/repo/src/rdycore.c:118-131`. -/
inductive Fn
  /-- `DestroyCourantNumberDiagnostics`, `/repo/src/operator.c:718-721` -/
  | courant
  /-- `ClearCeedResource`, `/repo/src/ceed.c:38` -/
  | ceed
  /-- any other function -/
  | user (n : ℕ)
  deriving DecidableEq, Repr

/-- The static variables of the library. `/repo/src/rdycore.c:7`, `:114-116`; `/repo/src/ceed.c:5-6`. -/
structure Proc where
  /-- `initialized_` (`/repo/src/rdycore.c`) -/
  initialized : Bool
  /-- `shutdown_funcs_` (`/repo/src/rdycore.c:116`): `none` is the null pointer; the list is the
  allocated array (its length is `shutdown_funcs_cap_`), a `none` entry is a null or
  uninitialised function pointer -/
  table : Option (List (Option Fn))
  /-- `num_shutdown_funcs_` (`/repo/src/rdycore.c:117`) -/
  num : ℕ
  /-- the `static PetscBool initialized` of `InitCourantNumberDiagnostics`
  (`/repo/src/operator.c:729`) -/
  courantInit : Bool
  /-- whether `MPI_COURANT_NUMBER_DIAGNOSTICS`/`MPI_MAX_COURANT_NUMBER` exist -/
  courantLive : Bool
  /-- `ceed_resource` (`/repo/src/ceed.c:5`) -/
  ceedResource : List Char
  /-- `ceed_context` (`/repo/src/ceed.c:6`): the resource the live context was created for -/
  ceedCtx : Option (List Char)
  /-- `!firstTime` (`/repo/src/ceed.c:63`) -/
  ceedRegistered : Bool
  /-- number of `CeedInit` calls -/
  created : ℕ
  /-- number of `CeedDestroy` calls on a live context -/
  destroyed : ℕ
  deriving DecidableEq

/-- Process start. `/repo/src/rdycore.c:7`, `:114-116`. -/
def Proc.fresh : Proc := ⟨false, none, 0, false, false, [], none, false, 0, 0⟩

/-- `/repo/src/rdycore.c:119-131` `RDyOnFinalize`. `none`: write outside the array.
The initial capacity is 32, the table doubles when full. -/
def Proc.register (p : Proc) (f : Fn) : Option Proc :=
  let t := match p.table with
    | none => List.replicate 32 none
    | some t => if p.num = t.length then t ++ List.replicate t.length none else t
  if p.num < t.length then
    some { p with table := some (t.set p.num (some f)), num := p.num + 1 }
  else none

/-- `/repo/src/operator.c:726-755` `InitCourantNumberDiagnostics`. -/
def Proc.initCourant (p : Proc) : Option Proc :=
  if p.courantInit then some p
  else (Proc.register { p with courantLive := true } .courant).map fun q =>
    { q with courantInit := true }

/-- `/repo/src/rdycore.c:66-84` `RDyInit` (and `RDyInitFortran`, `:88-109`). PETSc's own
initialisation is not modelled. -/
def Proc.init (p : Proc) : Option Proc :=
  if p.initialized then some p
  else p.initCourant.map fun q => { q with initialized := true }

/-- `/repo/src/ceed.c:52-56` (destruction of a live context in `SetCeedResource`). -/
def Proc.dropCeed (p : Proc) : Proc :=
  if p.ceedCtx.isSome then { p with ceedCtx := none, destroyed := p.destroyed + 1 } else p

/-- `/repo/src/ceed.c:58-66` (creation of a context for a non-empty resource in
`SetCeedResource`). -/
def Proc.newCeed (p : Proc) (r : List Char) : Option Proc :=
  if p.ceedRegistered then
    some { p with ceedCtx := some r, ceedResource := r, created := p.created + 1 }
  else
    (Proc.register { p with ceedCtx := some r, ceedResource := r, created := p.created + 1 }
      .ceed).map fun q => { q with ceedRegistered := true }

/-- `/repo/src/ceed.c:46-67` `SetCeedResource`; `r = none` is the null pointer. `CeedInit` is
assumed to succeed. -/
def Proc.setCeed (p : Proc) (r : Option (List Char)) : Option Proc :=
  if p.ceedCtx.isSome ∧ r = some p.ceedResource then some p
  else match r with
    | none => some p.dropCeed
    | some [] => some p.dropCeed
    | some (c :: cs) => p.dropCeed.newCeed (c :: cs)

/-- Effect of calling one shutdown function (`/repo/src/operator.c:718-721`, `/repo/src/ceed.c:38`).
Freeing the MPI objects twice is an error: `none`. -/
def Proc.call (p : Proc) : Fn → Option Proc
  | .courant => if p.courantLive then some { p with courantLive := false } else none
  | .ceed => p.setCeed none
  | .user _ => some p

/-- `/repo/src/rdycore.c:138-140`: `for (i = num - 1; i >= 0; --i) shutdown_funcs_[i]();`, the first
`i` entries still to be called. `none`: call through a null pointer or read outside the array. -/
def Proc.callAll (t : List (Option Fn)) : ℕ → Proc → Option (Proc × List Fn)
  | 0, p => some (p, [])
  | i + 1, p =>
    match t[i]? with
    | some (some f) =>
      (p.call f).bind fun q => (Proc.callAll t i q).map fun r => (r.1, f :: r.2)
    | _ => none

/-- `/repo/src/rdycore.c:135-148` `RDyFinalize`: returns the functions called, in call order. -/
def Proc.finalize (p : Proc) : Option (Proc × List Fn) :=
  match p.table with
  | none => some ({ p with initialized := false }, [])
  | some t => (Proc.callAll t p.num p).map fun r =>
      ({ r.1 with table := none, initialized := false }, r.2)

/-- API calls. `/repo/src/rdycore.c:66-148`; `/repo/src/ceed.c:30-67`. -/
inductive LibOp
  /-- `RDyInit` / `RDyInitFortran` -/
  | init
  /-- `RDyOnFinalize(f)` by a user of the library -/
  | register (n : ℕ)
  /-- `SetCeedResource(r)` (called by `RDySetup` with the `-ceed` option) -/
  | setCeed (r : Option (List Char))
  /-- `RDyFinalize` -/
  | finalize
  deriving DecidableEq

/-- One API call; returns the shutdown functions called. `/repo/src/rdycore.c:66-148`. -/
def Proc.step (p : Proc) : LibOp → Option (Proc × List Fn)
  | .init => p.init.map fun q => (q, [])
  | .register n => (p.register (.user n)).map fun q => (q, [])
  | .setCeed r => (p.setCeed r).map fun q => (q, [])
  | .finalize => p.finalize

/-- A history of API calls; returns all shutdown functions called, in order.
`/repo/src/rdycore.c:66-148`. -/
def Proc.runOps : Proc → List LibOp → Option (Proc × List Fn)
  | p, [] => some (p, [])
  | p, op :: ops =>
    (p.step op).bind fun r => (Proc.runOps r.1 ops).map fun r' => (r'.1, r.2 ++ r'.2)

end RDy
