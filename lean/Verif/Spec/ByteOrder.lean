import Verif.Model.ByteOrder

/-!
# Specification: precedence of operators, and the order of bytes
-/

namespace Uavcan.Spec
open ByteOrder

/-- How tightly an operator binds ([expr] of the C++ standard, from `||` to `*`). -/
def tightness : Op → Nat
  | .lor => 0 | .land => 1 | .bor => 2 | .bxor => 3 | .band => 4 | .eq => 5 | .ne => 5
  | .lt => 6 | .gt => 6 | .le => 6 | .ge => 6 | .shl => 7 | .shr => 7 | .add => 8 | .sub => 8 | .mul => 9

/-- A truth value as a number. -/
def truth (b : Bool) : BitVec 32 := if b then 1 else 0

/-- What an operator computes from numbers of type `uint32_t`; shifts by less than 32. -/
def compute : Op → BitVec 32 → BitVec 32 → BitVec 32
  | .mul, x, y => x * y
  | .add, x, y => x + y
  | .sub, x, y => x - y
  | .shl, x, y => x <<< y.toNat
  | .shr, x, y => x >>> y.toNat
  | .lt, x, y => truth (decide (x < y))
  | .gt, x, y => truth (decide (x > y))
  | .le, x, y => truth (decide (x ≤ y))
  | .ge, x, y => truth (decide (x ≥ y))
  | .eq, x, y => truth (decide (x = y))
  | .ne, x, y => truth (decide (x ≠ y))
  | .band, x, y => x &&& y
  | .bxor, x, y => x ^^^ y
  | .bor, x, y => x ||| y
  | .land, x, y => truth (decide (x ≠ 0 ∧ y ≠ 0))
  | .lor, x, y => truth (decide (x ≠ 0 ∨ y ≠ 0))

/-- The value of a text: it is split at the last of the operators that bind least. -/
inductive Means : Text → BitVec 32 → Prop where
  | operand (x : BitVec 32) : Means ⟨x, []⟩ x
  | split {a : Text} {op : Op} {y : BitVec 32} {r : List (Op × BitVec 32)} {v w : BitVec 32} :
      (∀ p ∈ a.rest, tightness op ≤ tightness p.1) → (∀ p ∈ r, tightness op < tightness p.1) → Means a v → Means ⟨y, r⟩ w →
      Means ⟨a.first, a.rest ++ (op, y) :: r⟩ (compute op v w)

/-- What a macro computes, if the instruction computes `f` from the value of its operand. -/
inductive Yields (f : BitVec 32 → BitVec 32) (a : Text) : Macro → BitVec 32 → Prop where
  | instruction {v : BitVec 32} : Means a v → Yields f a .instruction (f v)
  | expression {p : BitVec 32 × Op × BitVec 32} {ps : List (BitVec 32 × Op × BitVec 32)} {v w : BitVec 32} :
      Means (a.then .band p.1) v → Yields f a (.expression ps) w → Yields f a (.expression (p :: ps)) (compute p.2.1 v p.2.2 ||| w)
  | nothing : Yields f a (.expression []) 0

/-- The byte with this number, the least one first. -/
def byte (v : BitVec 32) (k : Nat) : BitVec 8 := (v >>> (8 * k)).setWidth 8

/-- The bytes in the opposite order, as the instruction `rev` of the processor does (ARMv7-M Architecture Reference Manual, A7.7.113). -/
def Reversed (v w : BitVec 32) : Prop := ∀ k, k < 4 → byte w k = byte v (3 - k)

/-- The bytes of each half in the opposite order, as the instruction `rev16` does (A7.7.114). -/
def HalvesReversed (v w : BitVec 32) : Prop := byte w 0 = byte v 1 ∧ byte w 1 = byte v 0 ∧ byte w 2 = byte v 3 ∧ byte w 3 = byte v 2

end Uavcan.Spec
