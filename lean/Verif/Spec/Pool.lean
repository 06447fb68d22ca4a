/-!
# Specification of a block pool

A block pool is a stack of free blocks. Nothing here refers to the implementation.
-/

namespace Uavcan.Spec

/-- Half-open byte ranges `[a, a+n)` and `[b, b+m)` have no byte in common. -/
def DisjointRanges (a n b m : Nat) : Prop := a + n ≤ b ∨ b + m ≤ a

/-- The abstract pool: free blocks, the next one to be handed out first. -/
abbrev FreeStack := List Nat

/-- Abstract allocation: `none` when the request is too large or nothing is free. -/
def stackAlloc (blockSize : Nat) (free : FreeStack) (size : Nat) : Option (Nat × FreeStack) :=
  if size ≤ blockSize then
    match free with
    | [] => none
    | a :: rest => some (a, rest)
  else none

/-- Abstract deallocation. -/
def stackFree (free : FreeStack) (a : Nat) : FreeStack := a :: free

end Uavcan.Spec
