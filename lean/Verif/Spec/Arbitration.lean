import Verif.Model.Can

/-!
# Specification: arbitration on a CAN bus

ISO 11898-1: all nodes that have a frame to send start at the same time and send it bit by bit. A bit is dominant (0) or recessive (1);
the bus carries a dominant bit if any node sends one. A node that sends a recessive bit and sees a dominant one stops sending.
Nothing of this is in the repository.
-/

namespace Uavcan.Spec
open Can

/-- What is sent of a data frame with a 29-bit identifier until arbitration is over, `true` for recessive: the upper 11 bits of the
identifier, the recessive bits SRR and IDE, the lower 18 bits of the identifier and the bit RTR, which is dominant. -/
def arbitrationField (id : BitVec 32) : List Bool :=
  ((List.range 11).map fun k => id.getLsbD (28 - k)) ++ [true, true] ++ ((List.range 18).map fun k => id.getLsbD (17 - k)) ++ [false]

/-- The nodes, each given by what it sends and what it wants to send, that still send after the first `n` bits. -/
def stillSending {α : Type} (nodes : List (List Bool × α)) : Nat → List (List Bool × α)
  | 0 => nodes
  | n + 1 =>
    let left := stillSending nodes n
    let bus := left.all fun p => p.1.getD n true
    left.filter fun p => p.1.getD n true == bus

/-- The frames that win the arbitration. Frames with different identifiers have one winner. -/
def winners {mtu : Nat} (frames : List (Frame mtu)) : List (Frame mtu) :=
  (stillSending (frames.map fun f => (arbitrationField f.id, f)) 32).map Prod.snd

/-- The order in which frames get on the bus that all wait to be sent: the winner is sent, the others try again. -/
inductive Sends {mtu : Nat} : List (Frame mtu) → List (Frame mtu) → Prop where
  | done : Sends [] []
  | next {frames rest sent : List (Frame mtu)} {f : Frame mtu} :
      winners frames = [f] → frames.Perm (f :: rest) → Sends rest sent → Sends frames (f :: sent)

/-- A queue hands out the frames in some order such that none of those that are left is greater, as `std::priority_queue` does. -/
inductive Pops {mtu : Nat} : List (Frame mtu) → List (Frame mtu) → Prop where
  | done : Pops [] []
  | next {frames rest out : List (Frame mtu)} {f : Frame mtu} :
      frames.Perm (f :: rest) → (∀ g ∈ rest, f.lt g = false) → Pops rest out → Pops frames (f :: out)

end Uavcan.Spec
