import Verif.Spec.Sender

/-!
# Specification: how long a frame waits

Time is counted in frames written.
-/

namespace Uavcan.Spec
open Can

/-- The frames that are to go before a frame that is queued now: those with its priority or a higher one. -/
def before {mtu : Nat} (f : Frame mtu) (q : List (Frame mtu)) : Nat := (q.filter fun g => decide (canId29 g.id ≤ canId29 f.id)).length

/-- The frames queued with a higher priority. -/
def higher {mtu : Nat} (f : Frame mtu) (ops : List (QOp mtu)) : Nat := ((pushed ops).filter fun g => decide (canId29 g.id < canId29 f.id)).length

/-- The frames taken from the queue. -/
def pops {mtu : Nat} (ops : List (QOp mtu)) : Nat := (ops.filter fun | .push _ => false | .pop => true).length

/-- It is the turn of `f`, queued behind `q`: at some time more frames have been taken than were to go before it, then or since. -/
def HasTurn {mtu : Nat} (f : Frame mtu) (q : List (Frame mtu)) (ops : List (QOp mtu)) : Prop :=
  ∃ p, p <+: ops ∧ before f q + higher f p < pops p

end Uavcan.Spec
