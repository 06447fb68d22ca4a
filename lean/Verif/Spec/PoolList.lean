import Verif.Model.PoolList

/-!
# Specification: a list with room for so many elements
-/

namespace Uavcan.Spec
open Uavcan.Stl Uavcan.PoolList

/-- The answers of a list with room for `n` elements, and its elements at the end; `none` if a position is asked for that is not there. -/
def listOf (n : Nat) : List PoolList.Op → List (List Pool.Byte) → Option (List Answer × List (List Pool.Byte))
  | [], q => some ([], q)
  | .insert i e _ _ :: ops, q =>
    if i ≤ q.length then
      if q.length < n then (listOf n ops (q.insertIdx i e)).map fun r => (.done :: r.1, r.2)
      else (listOf n ops q).map fun r => (.badAlloc :: r.1, r.2)
    else none
  | .erase i _ :: ops, q => if i < q.length then (listOf n ops (q.eraseIdx i)).map fun r => (.done :: r.1, r.2) else none
  | .get i :: ops, q =>
    match q[i]? with
    | none => none
    | some e => (listOf n ops q).map fun r => (.value e :: r.1, r.2)

/-- What is asked of a call: elements have their size, and links are written to headers only. -/
def ListProper (y : PoolList.Ty) : PoolList.Op → Prop
  | .insert _ e _ links => e.length = y.sizeT ∧ ∀ a, (links a).length = y.header
  | .erase _ links => ∀ a, (links a).length = y.header
  | .get _ => True

end Uavcan.Spec
