import Verif.Model.Deque

/-!
# Specification: a queue
-/

namespace Uavcan.Spec
open Uavcan.Stl

/-- First in, first out. `none` if the element of an empty queue is asked for or taken. -/
def fifo : List DequeOp → List (List Pool.Byte) → Option (List Answer × List (List Pool.Byte))
  | [], q => some ([], q)
  | .push e _ :: ops, q => (fifo ops (q ++ [e])).map fun r => (.done :: r.1, r.2)
  | .pop :: _, [] => none
  | .pop :: ops, _ :: q => (fifo ops q).map fun r => (.done :: r.1, r.2)
  | .front :: _, [] => none
  | .front :: ops, e :: q => (fifo ops (e :: q)).map fun r => (.value e :: r.1, r.2)

/-- How many elements are queued in all. -/
def pushes (ops : List DequeOp) : Nat := (ops.filter fun | .push .. => true | _ => false).length

/-- Elements have their size. -/
def Sized (sizeT : Nat) (ops : List DequeOp) : Prop := ∀ e k, DequeOp.push e k ∈ ops → e.length = sizeT

end Uavcan.Spec
