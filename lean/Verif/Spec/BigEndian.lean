/-!
# Specification of shifts of byte arrays

The validation suite (`libuavcan_validation_suite/include/lvs/platform/memory_copy.hpp`, comments 177–188 and 207–216) writes arrays
most significant byte and most significant bit first, and a copy with an offset as a shift of the whole array.
-/

namespace Uavcan.Spec

/-- The number an array of bytes stands for, most significant byte first. -/
def num : List (BitVec 8) → Nat
  | [] => 0
  | b :: l => b.toNat * 2 ^ (8 * l.length) + num l

/-- The bytes `q`, …, `m - 1` of an array. -/
def part (q m : Nat) (l : List (BitVec 8)) : List (BitVec 8) := (l.take m).drop q

/-- `dst'` is `src` shifted left by `r` bits, cut off at the length of the array; the lowest `r` bits are those of `dst`. -/
def ShiftedLeft (r : Nat) (src dst dst' : List (BitVec 8)) : Prop :=
  num dst' = num src * 2 ^ r % 2 ^ (8 * dst.length) + num dst % 2 ^ r

/-- `dst'` is `src` shifted right by `r` bits; the highest `r` bits are those of `dst`. -/
def ShiftedRight (r : Nat) (src dst dst' : List (BitVec 8)) : Prop :=
  num dst' = num src / 2 ^ r + num dst / 2 ^ (8 * dst.length - r) * 2 ^ (8 * dst.length - r)

end Uavcan.Spec
