import Verif.Model.LoopBack
import Verif.Spec.SocketCan

/-!
# Specification of the loopback test
-/

namespace Uavcan.Spec
open SocketCan

/-- A message is the `j`-th test frame come back: a data message with identifier `j + 1` and no payload. -/
def IsTest (j : Nat) (m : RxMsg) : Prop := IsErr m.frame.can_id = false ∧ canId29 m.frame.can_id = j + 1 ∧ m.frame.len = 0

/-- A frame given to the kernel is the `j`-th test frame: an extended data frame with identifier `j + 1` and no payload. -/
def IsTestOut (j : Nat) (f : CanfdFrame) : Prop := IsExtData f.can_id = true ∧ canId29 f.can_id = j + 1 ∧ f.len = 0

/-- The frames given to the kernel, call by call, with the descriptors. -/
def sendsOf (evs : List FdEv) : List (Int × List CanfdFrame) :=
  evs.filterMap fun | .call fd (.send fs) => some (fd, fs) | _ => none

/-- The messages one call of `recvmmsg` returns. -/
def got (ans : RecvAns) : List RxMsg := if ans.res ≤ 0 then [] else ans.msgs

/-- Test frame `j` came back on interface `i` before round `k`. -/
def CameBack (wd : World) (i j k : Nat) : Prop := ∃ k', k' < k ∧ ∃ m ∈ got (wd.recv k' i), IsTest j m

end Uavcan.Spec
