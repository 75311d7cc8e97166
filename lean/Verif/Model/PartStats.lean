import Mathlib.Data.List.Sort
import Mathlib.Data.Rat.Defs
import Mathlib.Algebra.BigOperators.Group.List.Basic

/-!
Model of the statistics on the distribution of the mesh that a run writes to its log (`/repo/src/rdysetup.c:1333-1369`).
-/

namespace RDy

/-- The five figures written to the log (`/repo/src/rdysetup.c:1358-1362`): total, smallest, largest and median number of cells of a process, and the ratio of the largest to the median.
`ratio = none`: the median is zero, and the floating-point quotient (`inf`, or `nan`) is no number. -/
structure PartStats where
  total : ℕ
  min : ℕ
  max : ℕ
  median : ℕ
  ratio : Option ℚ

/-- `/repo/src/rdysetup.c:1349`: `median_index`, `n / 2` for odd `n`, else `n / 2 - 1`. -/
def medianIndex (n : ℕ) : ℕ := if n % 2 ≠ 0 then n / 2 else n / 2 - 1

/-- `/repo/src/rdysetup.c:1355`: the quotient, where the denominator is not zero. -/
def statRatio (a b : ℕ) : Option ℚ := if b = 0 then none else some ((a : ℚ) / (b : ℚ))

/-- `/repo/src/rdysetup.c:1342-1362` on process 0: the numbers of owned cells gathered in the order of the processes, sorted by `PetscSortMPIInt`, and the entries taken from them; the total
is the sum over processes from `/repo/src/rdymesh.c:1433`. `none`: an entry outside the array is read. Simplified: `PetscInt` is the `int` that `MPI_INT` stands for, without overflow;
quotients are exact. -/
def partStats (owned : List ℕ) : Option PartStats :=
  let n := owned.length
  let s := owned.insertionSort (· ≤ ·)
  match s[0]?, s[n - 1]?, s[medianIndex n]? with
  | some a, some b, some c => some ⟨owned.sum, a, b, c, statRatio b c⟩
  | _, _, _ => none

end RDy
