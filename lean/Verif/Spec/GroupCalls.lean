import Verif.Model.GroupCalls
import Verif.Spec.SocketCan
import Verif.Spec.Clamp

/-!
# Specification: which calls of a group are allowed

As the comments in libuavcan/include/libuavcan/media/interfaces.hpp:60–174 say, and which ones the example defines.
-/

namespace Uavcan.Spec
open SocketCan Time

/-- What the comments ask of a call: there are as many frames as are to be sent, and as many filters, at most as many as the interface manager says it takes
(512). A duration to wait is not negative. An index may be wrong: both `read` and `write` return a result for that. -/
def Allowed : GroupCall → Prop
  | .write _ _ n _ => n ≤ 4
  | .read _ _ _ => True
  | .reconfigureFilters fc num _ => num ≤ 512 ∧ ∀ l, fc = some l → num ≤ l.length
  | .select t _ _ => 0 ≤ t.usec ∧ t.usec < 2 ^ 63

/-- The calls the example defines, with a group of `count` interfaces. -/
def DefinedFor (count : Nat) : GroupCall → Prop
  | .write index _ n _ => index < count → n ≤ 4
  | .read _ _ _ => True
  | .reconfigureFilters fc num _ => count = 0 ∨ num = 0 ∨ (fc = none ∧ num ≤ 512) ∨ (num < 2 ^ 32 ∧ ∃ l, fc = some l ∧ num ≤ l.length)
  | .select t _ _ => t.usec ≠ 0

/-- What can be said of the arguments and answers at all: 64-bit durations, and what `recvmmsg` may return. -/
def Possible : GroupCall → Prop
  | .read _ _ ans => ValidRecv ans
  | .select t _ _ => IsInt 64 t.usec
  | _ => True

end Uavcan.Spec
