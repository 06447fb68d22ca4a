/-!
# Specification of bit copies

Bits are numbered as on the UAVCAN wire and in the doc comments of `platform/memory.hpp`: bit `i` of a byte
array is bit `i % 8` (counted from the least significant) of byte `i / 8`.
-/

namespace Uavcan.Spec

/-- Bit `i` of a byte array; bits beyond the end read as zero. -/
def bit (l : List (BitVec 8)) (i : Nat) : Bool := (l.getD (i / 8) 0).getLsbD (i % 8)

/-- `dst'` is `dst` with the `len` bits from bit `d` on replaced by the `len` bits of `src` from bit `s` on. -/
def IsBitCopy (src : List (BitVec 8)) (s : Nat) (dst : List (BitVec 8)) (d len : Nat)
    (dst' : List (BitVec 8)) : Prop :=
  dst'.length = dst.length ∧
  ∀ i, i < 8 * dst.length →
    bit dst' i = if d ≤ i ∧ i < d + len then bit src (s + (i - d)) else bit dst i

/-- The bytes the two copy functions access, in either buffer: the byte of the offset, and every later byte `j` with
`8 j + offset % 8 < length`. -/
def Touched (off len j : Nat) : Prop := j = off / 8 ∨ (off / 8 < j ∧ 8 * j + off % 8 < len)

instance (off len j : Nat) : Decidable (Touched off len j) := by unfold Touched; infer_instance

end Uavcan.Spec
