import Verif.Model.Output

/-!
# `PetscOperator`: composition and named fields

`/repo/src/petsc_operator.c`.  A `Vec` is an abstract handle of type `V`; the effect of an operator on the
global vector is an arbitrary function of the operator's fields.
-/

namespace RDy

/-- `/repo/include/private/config.h.in:4` (`CMakeLists.txt`): `MAX_NAME_LEN` is a build option; its value plays no role. -/
structure NameCfg where
  maxLen : ℕ

/-- `/repo/include/private/rdyoperatorimpl.h:50-53` and `/repo/src/petsc_operator.c:152`: the stored name is the
first `MAX_NAME_LEN` characters (`strncpy` into a zeroed buffer of one more character). -/
def NameCfg.stored (c : NameCfg) (name : Str) : Str := name.take c.maxLen

/-- `/repo/src/petsc_operator.c:108`, `:142`: `!strncmp(name, stored, MAX_NAME_LEN)`. -/
def NameCfg.same (c : NameCfg) (name stored : Str) : Bool :=
  decide (name.take c.maxLen = stored.take c.maxLen)

/-- `/repo/include/private/rdyoperatorimpl.h:56-59`: `PetscOperatorFields`; the array is the list of its
first `num_fields` entries. -/
structure OpFields (V : Type) where
  entries : List (Str × V)
  capacity : ℕ

/-- `/repo/src/petsc_operator.c:105-115`, `PetscOperatorFieldsGet` (`none` is the `NULL` result). -/
def OpFields.get {V : Type} (c : NameCfg) (f : OpFields V) (name : Str) : Option V :=
  (f.entries.find? fun e => c.same name e.1).map Prod.snd

/-- `/repo/src/petsc_operator.c:91-96`, `:120-125`: capacity after making room for one more entry; the
write is at index `num`. -/
def grow (num capacity : ℕ) : ℕ :=
  if num + 1 > capacity then (if capacity > 0 then 2 * capacity else 8) else capacity

/-- `/repo/src/petsc_operator.c:139-146`: index of the *last* entry with the name. -/
def lastMatch {V : Type} (c : NameCfg) (name : Str) (entries : List (Str × V)) : Option ℕ :=
  entries.zipIdx.foldl (fun index e => if c.same name e.1.1 then some e.2 else index) none

/-- `/repo/src/petsc_operator.c:117-157`: `AppendOperatorField` and the replacement in
`PetscOperatorSetField`. -/
def OpFields.set {V : Type} (c : NameCfg) (f : OpFields V) (name : Str) (v : V) : OpFields V :=
  match lastMatch c name f.entries with
  | some i => ⟨f.entries.set i (c.stored name, v), f.capacity⟩
  | none => ⟨f.entries ++ [(c.stored name, v)], grow f.entries.length f.capacity⟩

/-- `/repo/include/private/rdyoperatorimpl.h:75-82` and `/repo/src/petsc_operator.c:48-51`: an operator with its
own action, or a composite.  `S` is the state of the global vector; the action gets the fields (the
time step and local vector are fixed during an application). -/
inductive POp (V S : Type) where
  | leaf (fields : OpFields V) (act : OpFields V → S → S) : POp V S
  | comp (fields : OpFields V) (capacity : ℕ) (subs : List (POp V S)) : POp V S

mutual
/-- `/repo/src/petsc_operator.c:42-46`, `PetscOperatorApply` (errors of the parts are not modelled). -/
def POp.apply {V S : Type} : POp V S → S → S
  | .leaf f act, s => act f s
  | .comp _ _ subs, s => POp.applyAll subs s
/-- `/repo/src/petsc_operator.c:53-60`, `PetscOperatorCompositeApply`. -/
def POp.applyAll {V S : Type} : List (POp V S) → S → S
  | [], s => s
  | o :: os, s => POp.applyAll os (POp.apply o s)
end

/-- `/repo/src/petsc_operator.c:11-21`, `PetscOperatorCreate`. -/
def POp.create {V S : Type} (act : OpFields V → S → S) : POp V S := .leaf ⟨[], 0⟩ act

/-- `/repo/src/petsc_operator.c:75-83`, `PetscOperatorCreateComposite`. -/
def POp.createComposite {V S : Type} : POp V S := .comp ⟨[], 0⟩ 0 []

/-- `/repo/src/petsc_operator.c:88-98`, `PetscOperatorCompositeAddSub`; applied to an operator that is not
a composite the code reinterprets its context (`none`). -/
def POp.addSub {V S : Type} (op sub : POp V S) : Option (POp V S) :=
  match op with
  | .leaf _ _ => none
  | .comp f cap subs => some (.comp f (grow subs.length cap) (subs ++ [sub]))

mutual
/-- `/repo/src/petsc_operator.c:136-166`, `PetscOperatorSetField`. -/
def POp.setField {V S : Type} (c : NameCfg) (name : Str) (v : V) : POp V S → POp V S
  | .leaf f act => .leaf (f.set c name v) act
  | .comp f cap subs => .comp (f.set c name v) cap (POp.setFieldAll c name v subs)
/-- `/repo/src/petsc_operator.c:159-164`: the loop over the sub-operators. -/
def POp.setFieldAll {V S : Type} (c : NameCfg) (name : Str) (v : V) : List (POp V S) → List (POp V S)
  | [] => []
  | o :: os => POp.setField c name v o :: POp.setFieldAll c name v os
end

end RDy
