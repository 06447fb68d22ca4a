import Verif.Model.Containers

/-!
# `std::deque` and `std::queue` on the pool allocator

`std::deque<T, PoolAllocator<NumBlocks, BlockSize, T>>`, also the container of `std::queue<T, …>`, used from one end to the other, on
`libuavcan/include/libuavcan/platform/memory.hpp`, 199–305 (in this file "memory.hpp").

The container is not in `/repo`. It is written down here as GNU's libstdc++ has it (`bits/stl_deque.h`, `bits/deque.tcc`), so far as it touches the allocator and the
memory it hands out: buffers of elements, and a "map", an array of pointers to them.

Simplifications, besides those of `Model/Containers`: which buffers there are is a value, not read from the map; the map keeps its eight places (libstdc++ makes it larger when a
sixth buffer is needed; `Props/Deque` shows that there is never a second).
-/

namespace Uavcan.Stl
open Uavcan.Pool

/-- `__deque_buf_size`: the number of elements in a buffer, for which memory.hpp 278–281 is asked. -/
def dequeBufSize (sizeT : Nat) : Nat := if sizeT < 512 then 512 / sizeT else 1

/-- `_S_initial_map_size`: the number of pointers in the map, for which memory.hpp 278–281 is asked. -/
def dequeMapSize : Nat := 8

/-- The map, the place in it of the last buffer, the buffers (all from memory.hpp 278–281), and the positions of the first element in the first buffer and of the end in the last one. -/
structure Deque where
  map : Nat
  place : Nat
  buffers : List Nat
  start : Nat
  finish : Nat
  deriving DecidableEq, Repr

/-- The bytes of a pointer that memory.hpp 278–281 returned. -/
def pointerBytes (c : Cfg) (p : Nat) : List Byte := (List.range c.ptrSize).map (byteOf p)

/-- `_M_initialize_map(0)`, the constructor: the map, then one buffer, in the middle of the map; if the buffer cannot be had the map is given back (memory.hpp 278–281, 289–296). `none`
if something was thrown. -/
def dequeConstruct (c : Cfg) (sizeT : Nat) (s : State) (k1 k2 : Nat) : Outcome (Option Deque × State) := do
  let (r, s) ← Pool.allocate c s dequeMapSize k1
  if r = .badAlloc then return (none, s)
  let (r2, s) ← Pool.allocate c s (dequeBufSize sizeT) k2
  if r2 = .badAlloc then do
    let (_, s) ← Pool.deallocate c s (ptrOf r)
    return (none, s)
  let place := (dequeMapSize - 1) / 2
  let s ← store c s (ptrOf r) (place * c.ptrSize) (pointerBytes c (ptrOf r2))
  return (some { map := ptrOf r, place, buffers := [ptrOf r2], start := 0, finish := 0 }, s)

/-- Calls on a deque that is used as a queue, also through `std::queue` (on memory.hpp 278–296). -/
inductive DequeOp where
  /-- `push_back` or `push`, with the number of spurious failures (memory.hpp 157) -/
  | push (e : List Byte) (spurious : Nat)
  /-- `pop_front` or `pop` -/
  | pop
  /-- `front` -/
  | front
  deriving DecidableEq, Repr

/-- Effect of a call on a deque (on memory.hpp 278–296). -/
def dequeStep (c : Cfg) (sizeT : Nat) (s : State) (d : Deque) : DequeOp → Outcome (Answer × State × Deque)
  | .push e k =>
    if d.finish + 1 ≠ dequeBufSize sizeT then do
      let s ← store c s (d.buffers.getLastD 0) (d.finish * sizeT) e
      return (.done, s, { d with finish := d.finish + 1 })
    else do -- `_M_push_back_aux`
      let (r, s) ← Pool.allocate c s (dequeBufSize sizeT) k
      if r = .badAlloc then return (.badAlloc, s, d)
      let s ← store c s d.map ((d.place + 1) * c.ptrSize) (pointerBytes c (ptrOf r))
      let s ← store c s (d.buffers.getLastD 0) (d.finish * sizeT) e
      return (.done, s, { d with place := d.place + 1, buffers := d.buffers ++ [ptrOf r], finish := 0 })
  | .pop =>
    if d.buffers.length ≤ 1 ∧ d.finish ≤ d.start then .ub .outOfBounds
    else if d.start + 1 ≠ dequeBufSize sizeT then .ok (.done, s, { d with start := d.start + 1 })
    else do -- `_M_pop_front_aux`
      let (_, s) ← Pool.deallocate c s (d.buffers.headD 0)
      return (.done, s, { d with buffers := d.buffers.tail, start := 0 })
  | .front =>
    if d.buffers.length ≤ 1 ∧ d.finish ≤ d.start then .ub .outOfBounds
    else do
      let bytes ← load c s (d.buffers.headD 0) (d.start * sizeT) sizeT
      return (.value bytes, s, d)

/-- A sequence of calls on a deque (on memory.hpp 278–296). -/
def dequeRun (c : Cfg) (sizeT : Nat) (s : State) (d : Deque) : List DequeOp → Outcome (List Answer × State × Deque)
  | [] => .ok ([], s, d)
  | op :: ops => do
    let (a, s, d) ← dequeStep c sizeT s d op
    let (as, s, d) ← dequeRun c sizeT s d ops
    return (a :: as, s, d)

/-- The destructor (memory.hpp 289–296): the buffers, then the map. -/
def dequeDestroy (c : Cfg) (s : State) (d : Deque) : Outcome State := deallocateAll c s (d.buffers ++ [d.map])

end Uavcan.Stl
