import Verif.Spec.TxQueue
import Verif.Model.PoolQueue

/-!
# Specification: a transmit queue with room for so many frames
-/

namespace Uavcan.Spec
open Uavcan.Can

/-- What the application does (C126), without what the library does about it. -/
def PoolQueue.Op.wish {mtu : Nat} : Uavcan.PoolQueue.Op mtu → QOp mtu
  | .push f .. => .push f
  | .pop .. => .pop

/-- The queue wanted, with room for `n` frames: a frame is refused if there are as many; the next to be sent is the one that came first of those that would win
arbitration. -/
def bounded {mtu : Nat} (n : Nat) : List (QOp mtu) → List (Frame mtu) → List (Uavcan.PoolQueue.Ans mtu) × List (Frame mtu)
  | [], q => ([], q)
  | .push f :: ops, q =>
    if q.length < n then (.queued :: (bounded n ops (q ++ [f])).1, (bounded n ops (q ++ [f])).2)
    else (.refused :: (bounded n ops q).1, (bounded n ops q).2)
  | .pop :: ops, q =>
    match (winners q).head? with
    | none => (.nothing :: (bounded n ops q).1, (bounded n ops q).2)
    | some f => (.sent f :: (bounded n ops (q.erase f)).1, (bounded n ops (q.erase f)).2)

/-- The frames that were sent. -/
def sentOf {mtu : Nat} (as : List (Uavcan.PoolQueue.Ans mtu)) : List (Frame mtu) :=
  as.filterMap fun | .sent f => some f | _ => none

/-- A frame as the C++ type can hold it: the data length code is one byte, the time 64 bits. -/
def Storable {mtu : Nat} (f : Frame mtu) : Prop := f.dlc < 256 ∧ 0 ≤ f.timestamp.usec ∧ f.timestamp.usec < 2 ^ 64

/-- What is asked of a layout: frames have the size, and a frame stored is read back. -/
structure GoodLayout {mtu : Nat} (y : Uavcan.PoolQueue.Layout mtu) : Prop where
  len : ∀ f, (y.enc f).length = y.size
  dec_enc : ∀ f, Storable f → y.dec (y.enc f) = f

/-- What is asked of a call: the frame is one; balancing the tree keeps the order of its nodes, and writes to their headers only. -/
def Proper {mtu : Nat} (y : Uavcan.PoolQueue.Layout mtu) : Uavcan.PoolQueue.Op mtu → Prop
  | .push f _ links shape => Storable f ∧ (∀ a, (links a).length = y.header) ∧ ∀ t, (shape t).nodes = t.nodes
  | .pop links shape => (∀ a, (links a).length = y.header) ∧ ∀ t, (shape t).nodes = t.nodes

end Uavcan.Spec
