import Verif.Core.Outcome

/-!
# Fixed-width C++ integers

Values are mathematical integers (`Int`) together with range predicates. Arithmetic is done in the
promoted type: operands narrower than `int` are promoted to `int`, which has 32 bits on both of the
code's targets (x86-64 Linux, `test/cmake/compiler_flag_sets/native.cmake`; ARMv7-M,
`test/cmake/compiler_flag_sets/ontarget.cmake`).
-/

namespace Uavcan

/-- `std::numeric_limits<T>::min()` of a signed type of `w` bits (used at math.hpp:56–58, 83, 91, 128;
time.hpp:189). -/
def intMin (w : Nat) : Int := -(2 ^ (w - 1))

/-- `std::numeric_limits<T>::max()` of a signed type of `w` bits (used at math.hpp:40–41, 90, 133–134;
time.hpp:105, 191). -/
def intMax (w : Nat) : Int := 2 ^ (w - 1) - 1

/-- `std::numeric_limits<T>::max()` of an unsigned type of `w` bits (used at math.hpp:170–171;
time.hpp:288). -/
def uintMax (w : Nat) : Int := 2 ^ w - 1

/-- `x` is representable in a signed type of `w` bits. -/
def InS (w : Nat) (x : Int) : Prop := intMin w ≤ x ∧ x ≤ intMax w

/-- `x` is representable in an unsigned type of `w` bits. -/
def InU (w : Nat) (x : Int) : Prop := 0 ≤ x ∧ x ≤ uintMax w

instance (w : Nat) (x : Int) : Decidable (InS w x) := inferInstanceAs (Decidable (_ ∧ _))
instance (w : Nat) (x : Int) : Decidable (InU w x) := inferInstanceAs (Decidable (_ ∧ _))

/-- Width of `int`. -/
def intWidth : Nat := 32

/-- Width of the type in which arithmetic on a `w`-bit operand is carried out (integral promotion). -/
def promW (w : Nat) : Nat := max w intWidth

/-- Conversion to a signed type of `w` bits: modulo `2^w` (the balanced remainder). -/
def castS (w : Nat) (x : Int) : Int := Int.bmod x (2 ^ w)

/-- Conversion to an unsigned type of `w` bits: modulo `2^w`. -/
def castU (w : Nat) (x : Int) : Int := x % 2 ^ w

/-- `static_cast` to an unsigned type of `w` bits, where one bit means `bool`: every number but 0 becomes `true` (used at
math.hpp:217–218, 243–244). -/
def convU (w : Nat) (x : Int) : Int := if w = 1 then (if x = 0 then 0 else 1) else castU w x

/-- The result `x` of an arithmetic operation on signed `w`-bit operands, computed in the promoted
type; undefined if it does not fit there. -/
def signedResult (w : Nat) (x : Int) : Outcome Int :=
  if InS (promW w) x then .ok x else .ub .signedOverflow

/-- The result `x` of an arithmetic operation on unsigned `w`-bit operands: promoted to `int` when
narrower than `int`, otherwise modulo `2^w`. -/
def unsignedResult (w : Nat) (x : Int) : Outcome Int :=
  if w < intWidth then signedResult w x else .ok (castU w x)

/-- `std::abs` strictly as the standard has it: undefined at the minimum of the `w`-bit parameter
type. -/
def strictAbs (w : Nat) (x : Int) : Outcome Int :=
  if x = intMin w then .ub .absOfMin else .ok (if x < 0 then -x else x)

/-- `std::abs` as two's complement hardware computes it: the minimum is its own absolute value. -/
def wrapAbs (w : Nat) (x : Int) : Outcome Int :=
  if x = intMin w then .ok (intMin w) else .ok (if x < 0 then -x else x)

end Uavcan
