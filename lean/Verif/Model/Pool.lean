import Verif.Core.Outcome

/-!
# Model of `StaticMemoryPool` and `PoolAllocator`, sequential part

`libuavcan/include/libuavcan/platform/memory.hpp`, lines 41–305.

Memory is modelled byte by byte, because the point of the pool's `union Block` (52–75) is that the
free-list link and the client's data share the same bytes: pointers are stored little-endian in the first
`ptrSize` bytes of a block. Addresses are numbers; the null pointer is 0.

Simplifications:
* only pool blocks may be dereferenced by the pool; following or writing any other pointer is
  `UB.wildPointer` (deallocating foreign memory is thus an error, cf. the remark at 84–88);
* this file is about one thread; the number of spurious failures of the weak compare-exchange (157) is an
  argument. Concurrency is in `Model/PoolConc.lean`.
-/

namespace Uavcan.Pool

abbrev Byte := BitVec 8
abbrev Mem := Nat → Byte

/-- Template parameters (41, 199–202), platform, build configuration and where the linker put the pool. -/
structure Cfg where
  /-- `NumBlocksParam` -/
  numBlocks : Nat
  /-- `BlockSizeParam` -/
  blockSize : Nat
  /-- `sizeof(Block*)` -/
  ptrSize : Nat
  /-- `alignof(std::max_align_t)` -/
  maxAlign : Nat
  /-- `sizeof(std::max_align_t)` -/
  maxAlignSize : Nat
  /-- address of `storage_` (81) -/
  base : Nat
  /-- `LIBUAVCAN_ENABLE_EXCEPTIONS` (build_config.hpp:74–78) -/
  exceptions : Bool
  deriving Repr, DecidableEq

/-- Round `n` up to a multiple of `a`. -/
def roundUp (n a : Nat) : Nat := (n + a - 1) / a * a

namespace Cfg

/-- `sizeof(Block)` (52–75): the largest member, padded to the union's alignment, which is that of
`std::max_align_t`. -/
def sizeofBlock (c : Cfg) : Nat := roundUp (max c.blockSize (max c.ptrSize c.maxAlignSize)) c.maxAlign

/-- Address of `storage_[i]` (81). -/
def blockAddr (c : Cfg) (i : Nat) : Nat := c.base + i * c.sizeofBlock

/-- `a` is the address of a block of the pool. -/
def isBlock (c : Cfg) (a : Nat) : Bool :=
  decide (c.base ≤ a) && decide ((a - c.base) % c.sizeofBlock = 0) &&
    decide ((a - c.base) / c.sizeofBlock < c.numBlocks)

/-- What the language and the linker guarantee about a configuration: at least one block (static_assert
at 96), a block size that fits `std::uint8_t`, storage aligned for its element type, not at address zero
and inside the address space. -/
structure WF (c : Cfg) : Prop where
  numBlocks_pos : 0 < c.numBlocks
  blockSize_pos : 0 < c.blockSize
  blockSize_le : c.blockSize ≤ 255
  ptrSize_pos : 0 < c.ptrSize
  maxAlign_pos : 0 < c.maxAlign
  base_pos : 0 < c.base
  base_aligned : c.base % c.maxAlign = 0
  inAddressSpace : c.base + c.numBlocks * c.sizeofBlock ≤ 256 ^ c.ptrSize

end Cfg

/-- Byte `i` of the little-endian representation of `v`. -/
def byteOf (v i : Nat) : Byte := BitVec.ofNat 8 (v / 256 ^ i)

/-- `*(Block**)a = v`. -/
def storePtr (c : Cfg) (mem : Mem) (a v : Nat) : Mem :=
  fun x => if a ≤ x ∧ x < a + c.ptrSize then byteOf v (x - a) else mem x

/-- Read `n` bytes at `a` as a little-endian number. -/
def loadLE (mem : Mem) (a : Nat) : Nat → Nat
  | 0 => 0
  | n + 1 => (mem a).toNat + 256 * loadLE mem (a + 1) n

/-- `*(Block**)a`. -/
def loadPtr (c : Cfg) (mem : Mem) (a : Nat) : Nat := loadLE mem a c.ptrSize

/-- The pool object's state: `storage_` (81) inside memory, and `free_list_` (89). -/
structure State where
  mem : Mem
  head : Nat

/-- The loop of the constructor, 101–106. -/
def initLoop (c : Cfg) (mem : Mem) (next : Nat) : Nat → Mem
  | 0 => mem
  | i + 1 =>
    let previous := c.blockAddr i                       -- 103
    initLoop c (storePtr c mem previous next) previous i -- 104–105

/-- `storage_()`, 92: the storage is zero-initialized. -/
def zeroStorage (c : Cfg) (mem : Mem) : Mem :=
  fun x => if c.base ≤ x ∧ x < c.base + c.numBlocks * c.sizeofBlock then 0 else mem x

/-- Constructor, 91–107. `mem` is whatever memory contained before. -/
def init (c : Cfg) (mem : Mem) : State :=
  let next := c.blockAddr (c.numBlocks - 1)             -- 99
  { head := c.base                                      -- 95
    mem := initLoop c (storePtr c (zeroStorage c mem) next 0) next (c.numBlocks - 1) }

/-- How `allocate` can return: with a pointer (possibly null) or by throwing `std::bad_alloc`. -/
inductive Result where
  | ptr (a : Nat)
  | null
  | badAlloc
  /-- result of a `void` call -/
  | done
  deriving DecidableEq, Repr

/-- What a failed allocation returns in each build: 150–154 with 167, and 161–164 with 167. -/
def failure (c : Cfg) : Result := if c.exceptions then .badAlloc else .null

/-- One pass through the body of the loop of `allocate`, 147–156, up to the compare-exchange: `none` if the
list is empty, otherwise `previous` and `next`. -/
def attempt (c : Cfg) (s : State) : Outcome (Option (Nat × Nat)) :=
  let previous := s.head                                -- 147
  if previous = 0 then .ok none                         -- 148–155
  else if c.isBlock previous then
    .ok (some (previous, loadPtr c s.mem previous))     -- 156
  else .ub .wildPointer

/-- The `do … while` loop of `allocate`, 145–157, when the compare-exchange fails spuriously `k` times. -/
def allocLoop (c : Cfg) (s : State) : Nat → Outcome (Result × State)
  | 0 => do
    match ← attempt c s with
    | none => return (failure c, s)
    | some (previous, next) => return (.ptr previous, { s with head := next })  -- 157, 167
  | k + 1 => do
    match ← attempt c s with
    | none => return (failure c, s)
    | some _ => allocLoop c s k                         -- 157, spurious failure

/-- `allocate`, 139–168. -/
def allocate (c : Cfg) (s : State) (size spurious : Nat) : Outcome (Result × State) :=
  if size ≤ c.blockSize then allocLoop c s spurious else .ok (failure c, s)

/-- `deallocate`, 170–177. -/
def deallocate (c : Cfg) (s : State) (ptr : Nat) : Outcome (Result × State) :=
  if ptr = 0 then .ok (.done, s)
  else if c.isBlock ptr then
    .ok (.done, { head := ptr, mem := storePtr c s.mem ptr s.head })  -- 175
  else .ub .wildPointer

/-- Calls on the pool, and client code writing a byte of memory. -/
inductive Op where
  /-- `allocate(size)` (139) with a number of spurious compare-exchange failures -/
  | allocate (size spurious : Nat)
  /-- `deallocate(ptr)` (170) -/
  | deallocate (ptr : Nat)
  /-- the client stores a byte -/
  | write (addr : Nat) (v : Byte)
  deriving DecidableEq, Repr

/-- Effect of one call. -/
def exec (c : Cfg) (s : State) : Op → Outcome (Result × State)
  | .allocate size k => allocate c s size k
  | .deallocate p => deallocate c s p
  | .write a v => .ok (.done, { s with mem := fun x => if x = a then v else s.mem x })

/-- A program: results in order, and the final state. -/
def run (c : Cfg) (s : State) : List Op → Outcome (List Result × State)
  | [] => .ok ([], s)
  | op :: ops => do
    let (r, s') ← exec c s op
    let (rs, s'') ← run c s' ops
    return (r :: rs, s'')

/-! ## `PoolAllocator`, 199–305 -/

/-- Program steps on allocator objects (named by numbers) of any element types but the same block count
and block size. -/
inductive AllocatorOp where
  /-- default constructor, 207–209 -/
  | construct (k : Nat)
  /-- copy or move construction, 211–217: refers to the same pool as `j` -/
  | copyFrom (k j : Nat)
  /-- conversion from an allocator of another element type, 221–224 (this is what `rebind` (237–241) uses) -/
  | convertFrom (k j : Nat)
  /-- `k.allocate(size)`, 278–281, also `k.allocate(size, hint)`, 262–268 -/
  | allocate (k size spurious : Nat)
  /-- `k.deallocate(p, size)`, 289–296; `size` is ignored -/
  | deallocate (k ptr : Nat)
  deriving DecidableEq, Repr

/-- All the pools of the program (by an identifying number) and which pool each allocator object refers to
(`pool_`, 205). -/
structure AllocatorEnv where
  pools : Nat → State
  pool_ : Nat → Option Nat

/-- The identity of the function-local static in `getReference()`, 133–137: one object per block count and
block size. Any fixed number will do. -/
def theStaticPool : Nat := 0

/-- Effect of one step. Using an allocator object that was never constructed is undefined. -/
def AllocatorOp.exec (c : Cfg) (e : AllocatorEnv) : AllocatorOp → Outcome (Result × AllocatorEnv)
  | .construct k => .ok (.done, { e with pool_ := fun i => if i = k then some theStaticPool else e.pool_ i })
  | .copyFrom k j => .ok (.done, { e with pool_ := fun i => if i = k then e.pool_ j else e.pool_ i })
  | .convertFrom k _ => .ok (.done, { e with pool_ := fun i => if i = k then some theStaticPool else e.pool_ i })
  | .allocate k size sp =>
    match e.pool_ k with
    | none => .ub .wildPointer
    | some p => do
      let (r, s) ← Pool.allocate c (e.pools p) size sp
      return (r, { e with pools := fun q => if q = p then s else e.pools q })
  | .deallocate k ptr =>
    match e.pool_ k with
    | none => .ub .wildPointer
    | some p => do
      let (r, s) ← Pool.deallocate c (e.pools p) ptr
      return (r, { e with pools := fun q => if q = p then s else e.pools q })

/-- A program over allocator objects. -/
def AllocatorOp.run (c : Cfg) (e : AllocatorEnv) : List AllocatorOp → Outcome (List Result × AllocatorEnv)
  | [] => .ok ([], e)
  | op :: ops => do
    let (r, e') ← op.exec c e
    let (rs, e'') ← AllocatorOp.run c e' ops
    return (r :: rs, e'')

/-- `max_size`, 301–304. -/
def maxSize (c : Cfg) : Nat := c.blockSize

end Uavcan.Pool
