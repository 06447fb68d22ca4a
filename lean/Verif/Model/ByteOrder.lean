/-!
# Model: the macros that reverse bytes

`REV_BYTES_32` and `REV_BYTES_16` of test/ontarget/S32K148EVB/include/s32_core_cm4.h:120–136. With GCC, IAR and Green Hills they are one instruction; with other compilers an
expression in which the text of the argument stands four times, without parentheses of its own.

Simplified away: the argument has type `uint32_t` and no side effects; division, the conditional operator and assignments do not occur in it outside of parentheses; a parenthesised
expression is one operand, given by its value.
-/

namespace Uavcan.ByteOrder

/-- Binary operators that may stand in the argument of the macros (s32_core_cm4.h:125, 134). -/
inductive Op where
  | mul | add | sub | shl | shr | lt | gt | le | ge | eq | ne | band | bxor | bor | land | lor
  deriving DecidableEq

/-- A text: an operand, then operators with operands. Operands are numbers, variables and expressions in parentheses, given by their values. -/
structure Text where
  first : BitVec 32
  rest : List (Op × BitVec 32)

/-- The text, followed by an operator and an operand: `a & 0xFF000000U` and the like, s32_core_cm4.h:126, 135. -/
def Text.then (a : Text) (op : Op) (x : BitVec 32) : Text := ⟨a.first, a.rest ++ [(op, x)]⟩

/-- What the macros are for a compiler. -/
inductive Macro where
  /-- one instruction, with the argument in parentheses, s32_core_cm4.h:123, 132 -/
  | instruction
  /-- the four parts `(a & mask) << shift` or `(a & mask) >> shift`, joined by `|`, s32_core_cm4.h:126, 135 -/
  | expression (parts : List (BitVec 32 × Op × BitVec 32))

/-- `REV_BYTES_32`, s32_core_cm4.h:122–127. -/
def revBytes32 (gnu iar ghs : Bool) : Macro :=
  if gnu || iar || ghs then .instruction                                          -- 122–123
  else .expression [(0xFF000000, .shr, 24), (0xFF0000, .shr, 8), (0xFF00, .shl, 8), (0xFF, .shl, 24)] -- 125–126

/-- `REV_BYTES_16`, s32_core_cm4.h:131–136. -/
def revBytes16 (gnu iar ghs : Bool) : Macro :=
  if gnu || iar || ghs then .instruction                                          -- 131–132
  else .expression [(0xFF000000, .shr, 8), (0xFF0000, .shl, 8), (0xFF00, .shr, 8), (0xFF, .shl, 8)] -- 134–135

end Uavcan.ByteOrder
