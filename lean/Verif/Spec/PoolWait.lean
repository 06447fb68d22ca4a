import Verif.Spec.PoolQueue
import Verif.Spec.Waiting

/-!
# Specification: what a queue with limited room has accepted
-/

namespace Uavcan.Spec
open Uavcan.Can

/-- The calls that were not refused, by the answers to them. -/
def admitted {mtu : Nat} : List (QOp mtu) → List (Uavcan.PoolQueue.Ans mtu) → List (QOp mtu)
  | _ :: ops, .refused :: as => admitted ops as
  | op :: ops, _ :: as => op :: admitted ops as
  | _, _ => []

end Uavcan.Spec
