import Verif.Model.SharedQueues
import Verif.Spec.PoolList
import Verif.Spec.PoolQueue

/-!
# Specification: containers that share room

A list (C142) or a queue (C134) has room for as many elements as there is in all, less those that the other containers hold. Otherwise they know nothing of each other.
-/

namespace Uavcan.Spec.Shared
open Uavcan.SharedQueues

/-- What kinds of containers a program has. -/
inductive Kind (mtu : Nat) where
  | list (y : PoolList.Ty)
  | queue (y : Uavcan.PoolQueue.Layout mtu)

/-- The elements of a container; of a queue in the order they came. -/
inductive Ideal (mtu : Nat) where
  | list (q : List (List Pool.Byte))
  | queue (q : List (Can.Frame mtu))

/-- The number of elements. -/
def Ideal.size {mtu : Nat} : Ideal mtu → Nat
  | .list q => q.length
  | .queue q => q.length

/-- The room for the `i`th container. -/
def room {mtu : Nat} (total : Nat) (ds : List (Ideal mtu)) (i : Nat) : Nat := total - ((ds.eraseIdx i).map Ideal.size).sum

/-- The effect of a call; `none` if a position is asked for that is not there. -/
def step {mtu : Nat} (total : Nat) (ds : List (Ideal mtu)) : Call mtu → Option (Reply mtu × List (Ideal mtu))
  | .list i ops => match ds[i]? with
    | some (.list q) => (listOf (room total ds i) ops q).map fun r => (.list r.1, ds.set i (.list r.2))
    | _ => some (.missing, ds)
  | .queue i ops => match ds[i]? with
    | some (.queue q) =>
      let r := bounded (room total ds i) (ops.map PoolQueue.Op.wish) q
      some (.queue r.1, ds.set i (.queue r.2))
    | _ => some (.missing, ds)
  | .clear i => match ds[i]? with
    | some (.list _) => some (.cleared, ds.set i (.list []))
    | some (.queue _) => some (.cleared, ds.set i (.queue []))
    | none => some (.missing, ds)

/-- A program. -/
def run {mtu : Nat} (total : Nat) : List (Call mtu) → List (Ideal mtu) → Option (List (Reply mtu) × List (Ideal mtu))
  | [], ds => some ([], ds)
  | call :: calls, ds =>
    match step total ds call with
    | none => none
    | some (r, ds) => (run total calls ds).map fun x => (r :: x.1, x.2)

/-- Containers at the beginning. -/
def Kind.fresh {mtu : Nat} : Kind mtu → Obj mtu
  | .list y => .list y []
  | .queue y => .queue y .nil

/-- Containers at the beginning. -/
def Kind.empty {mtu : Nat} : Kind mtu → Ideal mtu
  | .list _ => .list []
  | .queue _ => .queue []

/-- What is asked of a type: nodes fit into blocks (`C134_accepted`, `C142_accepted`), and frames are stored and read back. -/
def Kind.Fits {mtu : Nat} (c : Pool.Cfg) : Kind mtu → Prop
  | .list y => y.header + y.sizeT ≤ c.sizeofBlock
  | .queue y => y.header + y.size ≤ c.sizeofBlock ∧ GoodLayout y

/-- What is asked of a call. -/
def CallProper {mtu : Nat} (ks : List (Kind mtu)) : Call mtu → Prop
  | .list i ops => ∀ y, ks[i]? = some (.list y) → ∀ op ∈ ops, ListProper y op
  | .queue i ops => ∀ y, ks[i]? = some (.queue y) → ∀ op ∈ ops, Proper y op
  | .clear _ => True

/-- Something was refused. -/
def Refuses {mtu : Nat} : Reply mtu → Prop
  | .list as => Uavcan.Stl.Answer.badAlloc ∈ as
  | .queue as => Uavcan.PoolQueue.Ans.refused ∈ as
  | _ => False

end Uavcan.Spec.Shared
