import Verif.Model.Pool

/-!
# Standard containers on the pool allocator

`libuavcan_validation_suite/include/lvs/platform/memory.hpp`, lines 170–306 (in this file "lvs"), runs `std::vector` and
`std::unordered_map` over `PoolAllocator` (`libuavcan/include/libuavcan/platform/memory.hpp`, 199–305, here "memory.hpp").

The containers themselves are not in `/repo`. They are written down here as GNU's libstdc++ has them (`bits/stl_vector.h`,
`bits/vector.tcc`, `bits/hashtable.h`, `bits/hashtable_policy.h`), so far as they touch the allocator and the memory it hands out.
What other libraries do differently - how much a vector grows, when a map gets more buckets - is a parameter.

Simplifications:
* a pointer a container holds is the start of a block (or null), so an access is inside its block exactly if it ends within
  `sizeof(Block)` bytes of that start; an access beyond is `UB.outOfBounds`;
* elements are sequences of `sizeof(T)` bytes, copied bytewise (trivially copyable types);
* the map's bucket array is only cleared (as `_M_allocate_buckets` does); which node belongs to a key is decided by the list of nodes, not by
  following the bucket. The later writes into the bucket array stay within the bytes cleared.
-/

namespace Uavcan.Stl
open Uavcan.Pool

/-- Store bytes one after the other (`construct` of lvs 218–223, 247, 297–299, through a pointer from memory.hpp 280). -/
def writeBytes (mem : Mem) (a : Nat) : List Byte → Mem
  | [] => mem
  | b :: bs => writeBytes (fun x => if x = a then b else mem x) (a + 1) bs

/-- Read `n` bytes (lvs 224–225, 248, 300–302). -/
def readBytes (mem : Mem) (a n : Nat) : List Byte := (List.range n).map fun i => mem (a + i)

/-- A container writes at offset `off` of the memory at `p`, which `allocate` (memory.hpp 278–281) returned. -/
def store (c : Cfg) (s : State) (p off : Nat) (bytes : List Byte) : Outcome State :=
  if p = 0 then .ub .nullDeref
  else if off + bytes.length ≤ c.sizeofBlock then .ok { s with mem := writeBytes s.mem (p + off) bytes }
  else .ub .outOfBounds

/-- A container reads at offset `off` of the memory at `p`, which `allocate` (memory.hpp 278–281) returned. -/
def load (c : Cfg) (s : State) (p off n : Nat) : Outcome (List Byte) :=
  if p = 0 then .ub .nullDeref
  else if off + n ≤ c.sizeofBlock then .ok (readBytes s.mem (p + off) n)
  else .ub .outOfBounds

/-- What a call on a container answers: it returns (`done`, `value`, `missing`) or throws. -/
inductive Answer where
  | done
  | value (bytes : List Byte)
  | missing
  | lengthError
  | badAlloc
  deriving DecidableEq, Repr

/-! ## `std::vector<T, PoolAllocator<NumBlocks, BlockSize, T>>` (lvs 217, 233, 245) -/

/-- `_M_start`, `_M_finish - _M_start` and `_M_end_of_storage - _M_start` of the vector (lvs 217), counted in elements. -/
structure Vec where
  start : Nat
  size : Nat
  cap : Nat
  deriving DecidableEq, Repr

/-- `std::vector<…> test_vector;` (lvs 217, 233, 245) -/
def Vec.empty : Vec := ⟨0, 0, 0⟩

/-- The element type (lvs 178, `value_type` at memory.hpp 234) and the library's growth: the capacity for one element more than
`size` in a vector which may have at most `max` elements. -/
structure VecTy where
  sizeT : Nat
  grow : (size max : Nat) → Nat

/-- `vector::max_size()`: the smaller of `PTRDIFF_MAX / sizeof(T)` and the allocator's `max_size()` (memory.hpp 301–304). As `BlockSize`
is at most 255 the second is always the smaller one. -/
def vecMaxSize (c : Cfg) : Nat := maxSize c

/-- libstdc++'s `_M_check_len(1)`: twice the size, at least one, at most `max_size()`; it makes the capacities of lvs 218–223. -/
def libstdcxxGrow (size max : Nat) : Nat :=
  let len := size + Nat.max size 1
  if len < size ∨ len > max then max else len

/-- LLVM libc++'s `__recommend(size() + 1)` for a vector with `capacity() == size()`; another library for lvs 218–223. -/
def libcxxGrow (size max : Nat) : Nat := if size ≥ max / 2 then max else Nat.max (2 * size) (size + 1)

/-- `_M_allocate(n)`: null without asking the allocator (memory.hpp 278–281) if `n == 0`. -/
def vecAllocate (c : Cfg) (s : State) (n spurious : Nat) : Outcome (Result × State) :=
  if n = 0 then .ok (.null, s) else Pool.allocate c s n spurious

/-- The pointer an `allocate` returned. -/
def ptrOf : Result → Nat
  | .ptr a => a
  | _ => 0

/-- Construct the new element, if there is one (lvs 218–223), behind the `v.size` old ones in the array at `p`. -/
def constructExtra (c : Cfg) (ty : VecTy) (s : State) (v : Vec) (p : Nat) : Option (List Byte) → Outcome State
  | some e => store c s p (v.size * ty.sizeT) e
  | none => .ok s

/-- Copy the elements of `v`, if it has any, to the array at `p` (lvs 218–223, 234, 246). -/
def moveElements (c : Cfg) (ty : VecTy) (s : State) (v : Vec) (p : Nat) : Outcome State :=
  if v.size = 0 then .ok s else do
    let old ← load c s v.start 0 (v.size * ty.sizeT)
    store c s p 0 old

/-- Move to a new array of `newCap` elements: allocate it, construct the new element (if there is one) behind the old ones, copy the old
ones, give back the old array (memory.hpp 289–296). This is `_M_realloc_insert` (lvs 218–223) and `reserve` (lvs 234, 246). -/
def reallocate (c : Cfg) (ty : VecTy) (s : State) (v : Vec) (newCap spurious : Nat) (extra : Option (List Byte)) :
    Outcome (Answer × State × Vec) := do
  let (r, s) ← vecAllocate c s newCap spurious
  if r = .badAlloc then return (.badAlloc, s, v)
  let p := ptrOf r
  let s ← constructExtra c ty s v p extra
  let s ← moveElements c ty s v p
  let (_, s) ← Pool.deallocate c s v.start
  return (.done, s, { start := p, size := v.size + (if extra.isSome then 1 else 0), cap := newCap })

/-- Calls on a vector. -/
inductive VecOp where
  /-- `push_back` (lvs 218–223), and `emplace_back` of one argument (lvs 247) -/
  | pushBack (e : List Byte) (spurious : Nat)
  /-- `reserve` (lvs 234, 246) -/
  | reserve (n spurious : Nat)
  /-- `shrink_to_fit` (lvs 236); whether the library honours this non-binding request (libstdc++ does not if built without exceptions) -/
  | shrinkToFit (honoured : Bool) (spurious : Nat)
  | popBack
  | clear
  /-- `operator[]` (lvs 224, 248) -/
  | get (i : Nat)
  deriving DecidableEq, Repr

/-- Effect of a call on a vector (lvs 218–225, 234–237, 246–248). -/
def vecStep (c : Cfg) (ty : VecTy) (s : State) (v : Vec) : VecOp → Outcome (Answer × State × Vec)
  | .pushBack e k =>
    if v.size ≠ v.cap then do
      let s ← store c s v.start (v.size * ty.sizeT) e
      return (.done, s, { v with size := v.size + 1 })
    else if vecMaxSize c - v.size < 1 then .ok (.lengthError, s, v)
    else reallocate c ty s v (ty.grow v.size (vecMaxSize c)) k (some e)
  | .reserve n k =>
    if n > vecMaxSize c then .ok (.lengthError, s, v)
    else if v.cap < n then reallocate c ty s v n k none
    else .ok (.done, s, v)
  | .shrinkToFit honoured k =>
    if honoured = true ∧ v.cap ≠ v.size then do
      -- whatever is thrown is caught (`__shrink_to_fit_aux`)
      let (_, s, v) ← reallocate c ty s v v.size k none
      return (.done, s, v)
    else .ok (.done, s, v)
  | .popBack => if v.size = 0 then .ub .outOfBounds else .ok (.done, s, { v with size := v.size - 1 })
  | .clear => .ok (.done, s, { v with size := 0 })
  | .get i =>
    if i < v.size then do
      let bytes ← load c s v.start (i * ty.sizeT) ty.sizeT
      return (.value bytes, s, v)
    else .ub .outOfBounds

/-- A sequence of calls on a vector. -/
def vecRun (c : Cfg) (ty : VecTy) (s : State) (v : Vec) : List VecOp → Outcome (List Answer × State × Vec)
  | [] => .ok ([], s, v)
  | op :: ops => do
    let (a, s, v) ← vecStep c ty s v op
    let (as, s, v) ← vecRun c ty s v ops
    return (a :: as, s, v)

/-- The destructor, at the end of the tests (lvs 226, 238, 249). -/
def vecDestroy (c : Cfg) (s : State) (v : Vec) : Outcome State := do
  let (_, s) ← Pool.deallocate c s v.start
  return s

/-! ## `std::unordered_map<K, V, …, PoolAllocator<NumBlocks, BlockSize, …>>` (lvs 296) -/

/-- Layout of the nodes and the rehash policy. A node is a link, then the key, then the value (lvs 269). -/
structure MapTy where
  /-- `sizeof(int)` for `std::pair<const int, int>` (lvs 269), both of key and of value -/
  sizeK : Nat
  sizeV : Nat
  /-- `_M_need_rehash(buckets, elements, 1)`: the new number of buckets, if there have to be more -/
  rehash : (buckets elements : Nat) → Option Nat

/-- The policy of libstdc++ with a maximum load factor of 1, from the one internal bucket of a new map (lvs 296). From 128 elements on
(257 buckets, 541, …) the exact number no longer matters, as the pool refuses more than 255. -/
def libstdcxxRehash (buckets elements : Nat) : Option Nat :=
  if buckets = 1 then some 13
  else if elements + 1 > buckets then
    some (if buckets = 13 then 29 else if buckets = 29 then 59 else if buckets = 59 then 127 else 2 * buckets + 3)
  else none

/-- The map (lvs 296): its nodes, its bucket array (0 as long as the one bucket inside the map object is used) and the number of buckets. -/
structure Map where
  nodes : List Nat
  buckets : Nat
  bucketCount : Nat
  deriving DecidableEq, Repr

/-- `std::unordered_map<…> test_map;` (lvs 296) -/
def Map.empty : Map := ⟨[], 0, 1⟩

/-- The key of the node at `a` (lvs 297–302). -/
def keyAt (c : Cfg) (ty : MapTy) (mem : Mem) (a : Nat) : List Byte := readBytes mem (a + c.ptrSize) ty.sizeK

/-- The value of the node at `a` (lvs 297–302). -/
def valueAt (c : Cfg) (ty : MapTy) (mem : Mem) (a : Nat) : List Byte := readBytes mem (a + (c.ptrSize + ty.sizeK)) ty.sizeV

/-- `_M_find_node` (used by lvs 297–302). -/
def findNode (c : Cfg) (ty : MapTy) (s : State) (m : Map) (key : List Byte) : Option Nat :=
  m.nodes.find? fun a => keyAt c ty s.mem a == key

/-- `_M_rehash(n)` when inserting (lvs 297): a new bucket array from the bucket allocator - the same pool (memory.hpp 222–225, 238–242), asked for `n` -
cleared with `memset(p, 0, n * sizeof(pointer))`; the old array is given back. `false` if the allocation threw. -/
def mapRehash (c : Cfg) (s : State) (m : Map) (n spurious : Nat) : Outcome (Bool × State × Map) := do
  let (r, s) ← Pool.allocate c s n spurious
  if r = .badAlloc then return (false, s, m)
  let s ← store c s (ptrOf r) 0 (List.replicate (n * c.ptrSize) 0)
  let (_, s) ← Pool.deallocate c s m.buckets
  return (true, s, { m with buckets := ptrOf r, bucketCount := n })

/-- More buckets if the policy asks for them (lvs 297–299). `false` if something was thrown. -/
def growBuckets (c : Cfg) (ty : MapTy) (s : State) (m : Map) (spurious : Nat) : Outcome (Bool × State × Map) :=
  match ty.rehash m.bucketCount m.nodes.length with
  | none => .ok (true, s, m)
  | some n => mapRehash c s m n spurious

/-- A new node for a key which is not there (lvs 297–299): `allocate(1)` from the node allocator, link, key and zero value written, then the buckets
(`_M_insert_unique_node`). If that throws, the node is given back and the exception passed on. `none` if something was thrown. -/
def insertNew (c : Cfg) (ty : MapTy) (s : State) (m : Map) (key : List Byte) (k1 k2 : Nat) : Outcome (Option Nat × State × Map) := do
  let (r, s) ← Pool.allocate c s 1 k1
  if r = .badAlloc then return (none, s, m)
  let node := ptrOf r
  let s ← store c s node 0 (List.replicate c.ptrSize 0 ++ key ++ List.replicate ty.sizeV 0)
  let (ok, s, m) ← growBuckets c ty s m k2
  if ok then return (some node, s, { m with nodes := node :: m.nodes })
  let (_, s) ← Pool.deallocate c s node
  return (none, s, m)

/-- Calls on a map. -/
inductive MapOp where
  /-- `m[key] = value` (lvs 297–299) -/
  | assign (key value : List Byte) (k1 k2 : Nat)
  /-- `m[key]` (lvs 300–302), which makes a new element if there is none -/
  | subscript (key : List Byte) (k1 k2 : Nat)
  | find (key : List Byte)
  | erase (key : List Byte)
  deriving DecidableEq, Repr

/-- `operator[]` (lvs 297–302): the node of a key, made if necessary. `none` if something was thrown. -/
def nodeFor (c : Cfg) (ty : MapTy) (s : State) (m : Map) (key : List Byte) (k1 k2 : Nat) : Outcome (Option Nat × State × Map) :=
  match findNode c ty s m key with
  | some a => .ok (some a, s, m)
  | none => insertNew c ty s m key k1 k2

/-- Effect of a call on a map (lvs 297–302). -/
def mapStep (c : Cfg) (ty : MapTy) (s : State) (m : Map) : MapOp → Outcome (Answer × State × Map)
  | .assign key value k1 k2 => do
    let (node, s, m) ← nodeFor c ty s m key k1 k2
    match node with
    | none => return (.badAlloc, s, m)
    | some a => do
      let s ← store c s a (c.ptrSize + ty.sizeK) value
      return (.done, s, m)
  | .subscript key k1 k2 => do
    let (node, s, m) ← nodeFor c ty s m key k1 k2
    match node with
    | none => return (.badAlloc, s, m)
    | some a => do
      let bytes ← load c s a (c.ptrSize + ty.sizeK) ty.sizeV
      return (.value bytes, s, m)
  | .find key =>
    match findNode c ty s m key with
    | none => .ok (.missing, s, m)
    | some a => do
      let bytes ← load c s a (c.ptrSize + ty.sizeK) ty.sizeV
      return (.value bytes, s, m)
  | .erase key =>
    match findNode c ty s m key with
    | none => .ok (.missing, s, m)
    | some a => do
      let (_, s) ← Pool.deallocate c s a
      return (.done, s, { m with nodes := m.nodes.erase a })

/-- A sequence of calls on a map. -/
def mapRun (c : Cfg) (ty : MapTy) (s : State) (m : Map) : List MapOp → Outcome (List Answer × State × Map)
  | [] => .ok ([], s, m)
  | op :: ops => do
    let (a, s, m) ← mapStep c ty s m op
    let (as, s, m) ← mapRun c ty s m ops
    return (a :: as, s, m)

/-- Give back a list of blocks (memory.hpp 289–296). -/
def deallocateAll (c : Cfg) (s : State) : List Nat → Outcome State
  | [] => .ok s
  | a :: as => do
    let (_, s) ← Pool.deallocate c s a
    deallocateAll c s as

/-- The destructor, at the end of the test (lvs 303): all nodes, then the bucket array. -/
def mapDestroy (c : Cfg) (s : State) (m : Map) : Outcome State := deallocateAll c s (m.nodes ++ [m.buckets])

/-! ## The tests -/

/-- A pool on a 64-bit PC with GNU's compiler, as the unit tests build it (test/native/test_platform_memory_poolallocator_vector.cpp 16–20 and
…_unordered_map.cpp 16–20): 8-byte pointers, `std::max_align_t` has 32 bytes and alignment 16. -/
def lp64 (numBlocks blockSize base : Nat) (exceptions : Bool) : Cfg :=
  { numBlocks, blockSize, ptrSize := 8, maxAlign := 16, maxAlignSize := 32, base, exceptions }

/-- A pool on the 32-bit ARM board of the on-target tests (test/cmake/compiler_flag_sets/cortex-m4-fpv4-sp-d16-nosys.cmake 7–10): 4-byte pointers,
`std::max_align_t` has 16 bytes and alignment 8. -/
def ilp32 (numBlocks blockSize base : Nat) (exceptions : Bool) : Cfg :=
  { numBlocks, blockSize, ptrSize := 4, maxAlign := 8, maxAlignSize := 16, base, exceptions }

/-- `MinimumBlockCount` of the vector tests (lvs 183). -/
def vectorMinimumBlockCount : Nat := 2

/-- `MinimumBlockSize` of the vector tests (lvs 188). -/
def vectorMinimumBlockSize : Nat := 10

/-- `MinimumBlockCount` of the map test (lvs 264). -/
def mapMinimumBlockCount : Nat := 16

/-- `MinimumBlockSize` of the map test (lvs 274), with `sizeof(std::pair<const int, int>) == 8` (lvs 269). -/
def mapMinimumBlockSize : Nat := 8 + 64

/-- Calls which all have to return normally (an exception fails the test); `none` if one does not. -/
def vecDo (c : Cfg) (ty : VecTy) (s : State) (v : Vec) (ops : List VecOp) : Outcome (Option (State × Vec)) := do
  let (as, s, v) ← vecRun c ty s v ops
  return if as.all (· == .done) then some (s, v) else none

/-- `TestVector` (lvs 215–226); `k` is the number of spurious failures of the compare-exchange (memory.hpp 157). `true` if it passes. The last two lines are
`ASSERT_EQ('h', test_vector[0])` and `ASSERT_STREQ("hello", …data())`. -/
def testVector (c : Cfg) (ty : VecTy) (k : Nat) (s : State) : Outcome (Bool × State) := do
  match ← vecDo c ty s Vec.empty [.pushBack [0x68] k, .pushBack [0x65] k, .pushBack [0x6c] k, .pushBack [0x6c] k, .pushBack [0x6f] k,
      .pushBack [0] k] with
  | none => return (false, s)
  | some (s, v) =>
    let (first, s, v) ← vecStep c ty s v (.get 0)
    let hello ← load c s v.start 0 6
    let s ← vecDestroy c s v
    return (first == .value [0x68] && hello == [0x68, 0x65, 0x6c, 0x6c, 0x6f, 0], s)

/-- `TestVectorCapacity` (lvs 231–238). -/
def testVectorCapacity (c : Cfg) (ty : VecTy) (honoured : Bool) (k : Nat) (s : State) : Outcome (Bool × State) := do
  match ← vecDo c ty s Vec.empty [.reserve vectorMinimumBlockSize k] with
  | none => return (false, s)
  | some (s, v) =>
    let first := v.cap == vectorMinimumBlockSize
    match ← vecDo c ty s v [.shrinkToFit honoured k] with
    | none => return (false, s)
    | some (s, v) =>
      let second := decide (v.cap ≤ vectorMinimumBlockSize)
      let s ← vecDestroy c s v
      return (first && second, s)

/-- `TestEmplace` (lvs 243–249). -/
def testEmplace (c : Cfg) (ty : VecTy) (k : Nat) (s : State) : Outcome (Bool × State) := do
  match ← vecDo c ty s Vec.empty [.reserve vectorMinimumBlockSize k, .pushBack [0x31] k] with
  | none => return (false, s)
  | some (s, v) =>
    let (first, s, v) ← vecStep c ty s v (.get 0)
    let s ← vecDestroy c s v
    return (first == .value [0x31], s)

/-- An `int` of the map (lvs 269). -/
def int32 (n : Nat) : List Byte := (List.range 4).map (byteOf n)

/-- The calls of `TestUnorderedMap` (lvs 297–302). -/
def testMapOps (k : Nat) : List MapOp :=
  [.assign (int32 1) (int32 2) k k, .assign (int32 2) (int32 4) k k, .assign (int32 3) (int32 8) k k,
    .subscript (int32 1) k k, .subscript (int32 2) k k, .subscript (int32 3) k k]

/-- `TestUnorderedMap` (lvs 294–303). -/
def testUnorderedMap (c : Cfg) (rehash : Nat → Nat → Option Nat) (k : Nat) (s : State) : Outcome (Bool × State) := do
  let ty : MapTy := ⟨4, 4, rehash⟩
  let (as, s, m) ← mapRun c ty s Map.empty (testMapOps k)
  let s ← mapDestroy c s m
  return (as == [.done, .done, .done, .value (int32 2), .value (int32 4), .value (int32 8)], s)

end Uavcan.Stl
