import Verif.Model.PoolList

/-!
# Lists and transmit queues on one pool

All `PoolAllocator`s with the same block count and block size serve from one `StaticMemoryPool` (`libuavcan/include/libuavcan/platform/memory.hpp`, 206–225, in this file "memory.hpp"),
so lists (`Model/PoolList`) and transmit queues (`Model/PoolQueue`) with elements of any types share it. (`Model/SharedPool` is about vectors and maps.)

Simplification: one thread; the containers are there from the beginning, and can be emptied; a call on a container that is not there, or is of the other kind, which no program could be
compiled with, does nothing.
-/

namespace Uavcan.SharedQueues
open Uavcan.Pool Uavcan.Stl

/-- A container of the program, with memory from memory.hpp 278–281. -/
inductive Obj (mtu : Nat) where
  | list (y : PoolList.Ty) (nodes : List Nat)
  | queue (y : PoolQueue.Layout mtu) (t : PoolQueue.Tree)

/-- The blocks of a container (memory.hpp 278–281). -/
def Obj.nodes {mtu : Nat} : Obj mtu → List Nat
  | .list _ nodes => nodes
  | .queue _ t => t.nodes

/-- What a program does (on memory.hpp 278–296). -/
inductive Call (mtu : Nat) where
  /-- calls on the `i`th container, a list -/
  | list (i : Nat) (ops : List PoolList.Op)
  /-- calls on the `i`th container, a queue -/
  | queue (i : Nat) (ops : List (PoolQueue.Op mtu))
  /-- `clear()` of the `i`th container, or its destruction and a new one in its place -/
  | clear (i : Nat)

/-- What the program sees. -/
inductive Reply (mtu : Nat) where
  | list (as : List Answer)
  | queue (as : List (PoolQueue.Ans mtu))
  | cleared
  | missing

/-- The effect of a call, with the one pool of memory.hpp 206–225. -/
def callStep {mtu : Nat} (c : Cfg) (s : State) (os : List (Obj mtu)) : Call mtu → Outcome (Reply mtu × State × List (Obj mtu))
  | .list i ops => match os[i]? with
    | some (.list y nodes) => do
      let (as, s, nodes) ← PoolList.run c y s nodes ops
      return (.list as, s, os.set i (.list y nodes))
    | _ => .ok (.missing, s, os)
  | .queue i ops => match os[i]? with
    | some (.queue y t) => do
      let (as, s, t) ← PoolQueue.run c y s t ops
      return (.queue as, s, os.set i (.queue y t))
    | _ => .ok (.missing, s, os)
  | .clear i => match os[i]? with
    | some (.list y nodes) => do
      let s ← PoolList.destroy c s nodes
      return (.cleared, s, os.set i (.list y []))
    | some (.queue y t) => do
      let s ← PoolQueue.destroy c s t
      return (.cleared, s, os.set i (.queue y .nil))
    | none => .ok (.missing, s, os)

/-- A program (on memory.hpp 206–225). -/
def callRun {mtu : Nat} (c : Cfg) (s : State) (os : List (Obj mtu)) : List (Call mtu) → Outcome (List (Reply mtu) × State × List (Obj mtu))
  | [] => .ok ([], s, os)
  | call :: calls => do
    let (r, s, os) ← callStep c s os call
    let (rs, s, os) ← callRun c s os calls
    return (r :: rs, s, os)

end Uavcan.SharedQueues
