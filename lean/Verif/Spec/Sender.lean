import Verif.Spec.Stream
import Verif.Spec.TxQueue

/-!
# Specification: a transmit queue that is emptied by `write`

The application of C110 as it would be written: the frames wait in a `std::multiset<Frame, std::greater<Frame>>` (C126), new ones are queued at any time, `write` is called
with up to four from its beginning, and as many as it says are written are erased. Recorded is what happened to the queue: one `pop` for every frame erased.
-/

namespace Uavcan.Spec
open SocketCan Can

/-- The states that the sender, the bus and the receiver get to, with the record of the queue. -/
inductive Sender.Reaches (bus : CanfdFrame → RxMsg → Prop) (a : Stream) : List (QOp 64) → Stream → Prop where
  | refl : Reaches bus a [] a
  /-- The application queues a frame. -/
  | push {ops : List (QOp 64)} {b : Stream} (f : FrameT) : Reaches bus a ops b →
      Reaches bus a (ops ++ [.push f]) { b with pending := Kind.multiset.insert f b.pending }
  /-- `write`, `read`, or an error of the receiver's socket. -/
  | step {ops : List (QOp 64)} {b c : Stream} : Reaches bus a ops b → Stream.Step bus b c →
      Reaches bus a (ops ++ List.replicate (b.pending.length - c.pending.length) .pop) c

/-- The frames of one identifier. -/
def ofId (i : BitVec 29) (fs : List FrameT) : List FrameT := fs.filter fun f => f.id.setWidth 29 == i

end Uavcan.Spec
