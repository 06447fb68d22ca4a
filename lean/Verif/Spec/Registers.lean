/-!
# Specification: fields of registers

What a manual means by "bits s to s+w-1 of a register", and by address ranges that do not overlap. Nothing of this is in the
repository.
-/

namespace Uavcan.Spec

/-- The number in the `w` bits of `r` from bit `s` on. -/
def bitField (r : BitVec 32) (s w : Nat) : Nat := r.toNat / 2 ^ s % 2 ^ w

/-- No address is in both `[a, a + n)` and `[b, b + m)`. -/
def Apart (a n b m : Nat) : Prop := ∀ x, ¬ (a ≤ x ∧ x < a + n ∧ b ≤ x ∧ x < b + m)

end Uavcan.Spec
