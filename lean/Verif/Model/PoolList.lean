import Verif.Model.PoolQueue

/-!
# A list on the pool allocator

`std::list<T, PoolAllocator<NumBlocks, BlockSize, T>>` (`libuavcan/include/libuavcan/platform/memory.hpp` 199–305, in this file "memory.hpp").

The container itself is not in `/repo`. It is written down here as GNU's libstdc++ has it (`bits/stl_list.h`, `bits/list.tcc`), so far as it touches the allocator and the memory it
hands out: nodes are a header (two links) and the element; the end of the list is in the list object. What is written into the headers is a parameter of each call.

Simplification: the order of the nodes is a value, not read from the headers.
-/

namespace Uavcan.PoolList
open Uavcan.Pool Uavcan.Stl Uavcan.PoolQueue

/-- The sizes of the header of a node and of the element; the allocator is rebound to the node (memory.hpp 238–242). -/
structure Ty where
  header : Nat
  sizeT : Nat

/-- Calls on the list, with the number of spurious failures (memory.hpp 157) and the links the library writes. -/
inductive Op where
  /-- `list.insert(std::next(list.begin(), i), e)` (memory.hpp 278–281); `push_front` is `i = 0`, `push_back` is `i = size()` -/
  | insert (i : Nat) (e : List Byte) (spurious : Nat) (links : Nat → List Byte)
  /-- `list.erase(std::next(list.begin(), i))` (memory.hpp 289–296); `pop_front`, `pop_back` -/
  | erase (i : Nat) (links : Nat → List Byte)
  /-- `*std::next(list.begin(), i)` (memory from memory.hpp 278–281); `front`, `back` -/
  | get (i : Nat)

/-- Effect of a call on the list with these nodes (memory.hpp 278–281, 289–296). -/
def step (c : Cfg) (y : Ty) (s : State) (nodes : List Nat) : Op → Outcome (Answer × State × List Nat)
  | .insert i e k links =>
    if i ≤ nodes.length then do
      let (r, s) ← Pool.allocate c s 1 k
      if r = .badAlloc then return (.badAlloc, s, nodes)
      let p := ptrOf r
      let s ← store c s p y.header e
      let nodes := nodes.take i ++ p :: nodes.drop i
      let s ← relink c s links nodes
      return (.done, s, nodes)
    else .ub .outOfBounds
  | .erase i links =>
    match nodes[i]? with
    | none => .ub .outOfBounds
    | some a => do
      let nodes := nodes.take i ++ nodes.drop (i + 1)
      let s ← relink c s links nodes
      let (_, s) ← Pool.deallocate c s a
      return (.done, s, nodes)
  | .get i =>
    match nodes[i]? with
    | none => .ub .outOfBounds
    | some a => do
      let bytes ← load c s a y.header y.sizeT
      return (.value bytes, s, nodes)

/-- A sequence of calls on the list (memory.hpp 278–296). -/
def run (c : Cfg) (y : Ty) (s : State) (nodes : List Nat) : List Op → Outcome (List Answer × State × List Nat)
  | [] => .ok ([], s, nodes)
  | op :: ops => do
    let (a, s, nodes) ← step c y s nodes op
    let (as, s, nodes) ← run c y s nodes ops
    return (a :: as, s, nodes)

/-- The destructor (memory.hpp 289–296). -/
def destroy (c : Cfg) (s : State) (nodes : List Nat) : Outcome State := deallocateAll c s nodes

end Uavcan.PoolList
