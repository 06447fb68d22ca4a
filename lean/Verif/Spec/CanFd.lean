/-!
# Specification facts about CAN

ISO 11898-1: a CAN 2.0 frame carries 0–8 bytes, a CAN FD frame additionally 12, 16, 20, 24, 32, 48 or 64.
-/

namespace Uavcan.Spec

/-- `n` is a payload length a CAN FD data frame can have. -/
def FdLength (n : Nat) : Prop :=
  n ≤ 8 ∨ n = 12 ∨ n = 16 ∨ n = 20 ∨ n = 24 ∨ n = 32 ∨ n = 48 ∨ n = 64

/-- `n` is a payload length a CAN 2.0 data frame can have. -/
def Can20Length (n : Nat) : Prop := n ≤ 8

instance (n : Nat) : Decidable (FdLength n) := inferInstanceAs (Decidable (_ ∨ _))
instance (n : Nat) : Decidable (Can20Length n) := inferInstanceAs (Decidable (_ ≤ _))

/-- `m` is the smallest number at least `n` that satisfies `P`. -/
def IsLeastAtLeast (P : Nat → Prop) (n m : Nat) : Prop :=
  P m ∧ n ≤ m ∧ ∀ k, P k → n ≤ k → m ≤ k

/-- The 29-bit identifier inside a 32-bit word. -/
def canId29 (word : BitVec 32) : Nat := word.toNat % 2 ^ 29

end Uavcan.Spec
