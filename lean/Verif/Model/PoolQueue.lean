import Verif.Model.Containers
import Verif.Model.Can

/-!
# A transmit queue on the pool allocator

`std::multiset<Frame, std::greater<Frame>, PoolAllocator<NumBlocks, BlockSize, Frame>>`: frames of `libuavcan/include/libuavcan/media/can.hpp` (in this file "can.hpp"), ordered
by their `operator>` (can.hpp 433–436), in blocks of `libuavcan/include/libuavcan/platform/memory.hpp` (199–305, here "memory.hpp").

The container itself is not in `/repo`. It is written down here as GNU's libstdc++ has it (`bits/stl_tree.h`), so far as it touches the allocator, the memory it hands out, and
the operator: a binary tree whose nodes are a header (colour and three links) and the frame. What a library does to keep the tree balanced, and what it writes into the headers,
is a parameter of each call.

Simplification: the tree is a value, not read from the headers.
-/

namespace Uavcan.PoolQueue
open Uavcan.Pool Uavcan.Stl

/-- How frames (can.hpp 247–298) are kept in a node: the size of its header and of the frame, the bytes of a frame, and the frame that bytes are. -/
structure Layout (mtu : Nat) where
  header : Nat
  size : Nat
  enc : Can.Frame mtu → List Byte
  dec : List Byte → Can.Frame mtu

/-- The `static_assert` on the type for which the container wants memory (memory.hpp 227–229, for the node 238–242): a program with larger nodes is not compiled. -/
def accepted (c : Cfg) (sizeofNode : Nat) : Bool := decide (sizeofNode ≤ c.blockSize)

/-- The tree of nodes; a node is the address that `allocate` (memory.hpp 278–281) returned. -/
inductive Tree where
  | nil
  | node (l : Tree) (a : Nat) (r : Tree)

/-- The nodes in the order of iteration; the addresses are those of memory.hpp 278–281. -/
def Tree.nodes : Tree → List Nat
  | .nil => []
  | .node l a r => l.nodes ++ a :: r.nodes

/-- `_M_get_insert_equal_pos` and `_M_insert_`: descend, to the left where the new frame is greater (can.hpp 433–436), to the node's new place at `p`. -/
def place {mtu : Nat} (c : Cfg) (y : Layout mtu) (s : State) (f : Can.Frame mtu) (p : Nat) : Tree → Outcome Tree
  | .nil => .ok (.node .nil p .nil)
  | .node l a r => do
    let bytes ← load c s a y.header y.size
    if f.gt (y.dec bytes) then do
      let l ← place c y s f p l
      return .node l a r
    else do
      let r ← place c y s f p r
      return .node l a r

/-- The headers of nodes (memory from memory.hpp 278–281) are written. -/
def relink (c : Cfg) (s : State) (links : Nat → List Byte) : List Nat → Outcome State
  | [] => .ok s
  | a :: as => do
    let s ← store c s a 0 (links a)
    relink c s links as

/-- The tree without its first node (which goes back with memory.hpp 289–296). -/
def Tree.dropFirst : Tree → Tree
  | .nil => .nil
  | .node .nil _ r => r
  | .node l a r => .node l.dropFirst a r

/-- Calls on the queue, with the number of spurious failures (memory.hpp 157) and what the library does to balance the tree. -/
inductive Op (mtu : Nat) where
  /-- `queue.insert(f)` (can.hpp 433–436, memory.hpp 278–281) -/
  | push (f : Can.Frame mtu) (spurious : Nat) (links : Nat → List Byte) (shape : Tree → Tree)
  /-- `if (!queue.empty()) { f = *queue.begin(); queue.erase(queue.begin()); }` (memory.hpp 289–296) -/
  | pop (links : Nat → List Byte) (shape : Tree → Tree)

/-- What the application sees. -/
inductive Ans (mtu : Nat) where
  | queued
  /-- `std::bad_alloc` (memory.hpp 150–154) -/
  | refused
  | sent (f : Can.Frame mtu)
  | nothing

/-- Effect of a call on the queue (can.hpp 433–436, memory.hpp 278–281, 289–296). -/
def step {mtu : Nat} (c : Cfg) (y : Layout mtu) (s : State) (t : Tree) : Op mtu → Outcome (Ans mtu × State × Tree)
  | .push f k links shape => do
    let (r, s) ← Pool.allocate c s 1 k
    if r = .badAlloc then return (.refused, s, t)
    let p := ptrOf r
    let s ← store c s p y.header (y.enc f)
    let t ← place c y s f p t
    let s ← relink c s links t.nodes
    return (.queued, s, shape t)
  | .pop links shape =>
    match t.nodes with
    | [] => .ok (.nothing, s, t)
    | a :: _ => do
      let bytes ← load c s a y.header y.size
      let t := t.dropFirst
      let s ← relink c s links t.nodes
      let (_, s) ← Pool.deallocate c s a
      return (.sent (y.dec bytes), s, shape t)

/-- A sequence of calls on the queue (memory.hpp 278–296). -/
def run {mtu : Nat} (c : Cfg) (y : Layout mtu) (s : State) (t : Tree) : List (Op mtu) → Outcome (List (Ans mtu) × State × Tree)
  | [] => .ok ([], s, t)
  | op :: ops => do
    let (a, s, t) ← step c y s t op
    let (as, s, t) ← run c y s t ops
    return (a :: as, s, t)

/-- The destructor (memory.hpp 289–296). -/
def destroy (c : Cfg) (s : State) (t : Tree) : Outcome State := deallocateAll c s t.nodes

end Uavcan.PoolQueue
