import Mathlib.Data.Int.Basic
import Mathlib.Algebra.Order.Ring.Int

/-!
# Model of `lf::base::narrow` for integer types

`none`: the assertion fails.  Floating point types are not modelled.
-/

namespace Verif.Narrow

/-- An integer type of C++: with or without sign, and a number of bits. -/
structure IntType where
  signed : Bool
  bits : ℕ

/-- `static_cast` to an integer type: reduction modulo `2 ^ bits` to the range of the type (C++20, [conv.integral]). -/
def IntType.cast (t : IntType) (z : ℤ) : ℤ :=
  if t.signed then (z + 2 ^ (t.bits - 1)) % 2 ^ t.bits - 2 ^ (t.bits - 1) else z % 2 ^ t.bits

/-- `narrow<TO>(from)`; /repo/lib/lf/base/narrow.h:30-44. -/
def narrow (FROM TO : IntType) (x : ℤ) : Option ℤ :=
  let y := TO.cast x
  if FROM.cast y = x ∧ (FROM.signed = TO.signed ∨ (y < 0 ↔ x < 0)) then some y else none

end Verif.Narrow
