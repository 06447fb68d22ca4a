import Verif.Spec.Transfer
import Verif.Spec.PoolWait

/-!
# Specification: giving up a transfer

An application cuts transfers into frames (`Spec/Transfer`) and offers them to a transmit queue with limited room (`Spec/PoolQueue`). When a frame is refused, it gives up the transfer: it does not
offer the rest of it.
-/

namespace Uavcan.Spec
open SocketCan Can

/-- A transfer, and how many of its frames were accepted. -/
structure Tried where
  transfer : Transfer
  frames : Nat

/-- What the frames carry that were offered, and whether they were accepted: the first ones were, and if that is not all of them, the next was not. -/
def Tried.offered (x : Tried) : List (List Byte × Bool) :=
  (x.transfer.contents.take x.frames).map (fun b => (b, true)) ++ x.transfer.contents[x.frames]?.toList.map fun b => (b, false)

/-- All frames of the transfer were accepted. -/
def Tried.complete (x : Tried) : Bool := decide (x.transfer.contents.length ≤ x.frames)

/-- The payloads of the transfers all frames of which were accepted. -/
def wholePayloads (xs : List Tried) : List (List Byte) := (xs.filter Tried.complete).map fun x => x.transfer.payload

/-- The frames offered, and whether they were accepted. -/
def offers : List (QOp 64) → List (Uavcan.PoolQueue.Ans 64) → List (FrameT × Bool)
  | .push f :: ops, .refused :: as => (f, false) :: offers ops as
  | .push f :: ops, _ :: as => (f, true) :: offers ops as
  | .pop :: ops, _ :: as => offers ops as
  | _, _ => []

/-- Those with an identifier. -/
def offersOf (i : BitVec 29) (ops : List (QOp 64)) (as : List (Uavcan.PoolQueue.Ans 64)) : List (FrameT × Bool) := (offers ops as).filter fun x => x.1.id.setWidth 29 == i

/-- The frame is made of these bytes, and has been answered thus. -/
def OfferMade (id : BitVec 32) (x : List Byte × Bool) (y : FrameT × Bool) : Prop := Made id x.1 y.1 ∧ x.2 = y.2

/-- What the application has offered so far, with each identifier, are the frames of these transfers, each given up with the first frame refused; identifier 0 is not used. -/
def GivesUp (xs : BitVec 29 → List Tried) (ops : List (QOp 64)) (as : List (Uavcan.PoolQueue.Ans 64)) : Prop :=
  xs 0 = [] ∧ ∀ i, Paired (OfferMade (i.setWidth 32)) (((xs i).flatMap Tried.offered).take (offersOf i ops as).length) (offersOf i ops as)

/-- All of them. -/
def OfferedAll (xs : BitVec 29 → List Tried) (ops : List (QOp 64)) (as : List (Uavcan.PoolQueue.Ans 64)) : Prop :=
  ∀ i, ((xs i).flatMap Tried.offered).length = (offersOf i ops as).length

end Uavcan.Spec
