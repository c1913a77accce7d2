import Verif.Model.VectorStore
/-!
# Swizzles

`/repo/include/muu/vector.h`, lines 2524–2650.
-/
namespace Verif.Model.Swizzle
open Verif.Model.VectorStore

variable {α : Type}

/-- swizzle, vector.h:2560-2571 (and the member function, 2598-2603, that calls it): both static_asserts (`none` if one fails), then a vector
of as many dimensions as there are indices from `get<Indices>()...`. -/
def swizzle (zero : α) {n : ℕ} (v : Store α n) (indices : List ℕ) : Option (Store α indices.length) :=
  if 0 < indices.length ∧ indices.all (· < n) then do init zero indices.length (← indices.mapM (component v)) else none

/-- xy, vector.h:2605-2611. `none`: the constraint is not met, or `get` has no such component. -/
def xy (zero : α) {n : ℕ} (v : Store α n) : Option (Store α 2) :=
  if 2 ≤ n then do init zero 2 [← component v 0, ← component v 1] else none

/-- xz, vector.h:2613-2619. -/
def xz (zero : α) {n : ℕ} (v : Store α n) : Option (Store α 2) :=
  if 3 ≤ n then do init zero 2 [← component v 0, ← component v 2] else none

/-- yx, vector.h:2621-2627. -/
def yx (zero : α) {n : ℕ} (v : Store α n) : Option (Store α 2) :=
  if 2 ≤ n then do init zero 2 [← component v 1, ← component v 0] else none

/-- xyz, vector.h:2629-2635. -/
def xyz (zero : α) {n : ℕ} (v : Store α n) : Option (Store α 3) :=
  if 3 ≤ n then do init zero 3 [← component v 0, ← component v 1, ← component v 2] else none

/-- xyz1, vector.h:2637-2643. -/
def xyz1 (zero one : α) {n : ℕ} (v : Store α n) : Option (Store α 4) :=
  if 3 ≤ n then do init zero 4 [← component v 0, ← component v 1, ← component v 2, one] else none

/-- xyz0, vector.h:2645-2651. -/
def xyz0 (zero : α) {n : ℕ} (v : Store α n) : Option (Store α 4) :=
  if 3 ≤ n then do init zero 4 [← component v 0, ← component v 1, ← component v 2, zero] else none

end Verif.Model.Swizzle
