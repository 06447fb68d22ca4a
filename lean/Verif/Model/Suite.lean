import Verif.Model.CopyBits
import Verif.Model.Pool
import Verif.Model.Can
import Verif.Model.Time

/-!
# Model of the validation suite

`libuavcan_validation_suite/include/lvs/…`, the tests users include to check an implementation on their platform, and
`test/native/test_util_math.cpp`. A test is a program in C++; it passes, fails at an assertion, or is undefined.

Simplifications: gtest is reduced to "the first failing `ASSERT` ends the test" (and an exception that is not expected fails it); the tests
with `std::vector` and `std::unordered_map` (memory.hpp:170–306) are left out, since their calls depend on the
standard library. Tests of classes that are templates over a number type are functions of its width.
-/

namespace Uavcan.Suite

abbrev Byte := BitVec 8

/-- A test or part of one: `none` after a failed assertion. -/
abbrev Check (α : Type) := OptionT Outcome α

/-- `ASSERT_TRUE`, `ASSERT_EQ`, … of gtest. -/
def ASSERT (b : Bool) : Check Unit := if b then pure () else failure

/-- The test passes. -/
def Passes {α : Type} (t : Check α) : Prop := ∃ a, t.run = .ok (some a)

/-- A decidable form of `Passes`. -/
def passed {α : Type} (t : Check α) : Bool :=
  match t.run with
  | .ok (some _) => true
  | _ => false

/-! ## Bit copies, `lvs/platform/memory_copy.hpp` -/

/-- The two functions under test: arguments and results as in `Model/CopyBits`. -/
structure Copies where
  /-- `copyBitsUnalignedToAligned(src, src_offset_bits, dst, length_bits)` -/
  ua : Option (List Byte) → Nat → Option (List Byte) → Nat → Outcome (Nat × Option (List Byte))
  /-- `copyBitsAlignedToUnaligned(src, dst, dst_offset_bits, length_bits)` -/
  au : Option (List Byte) → Option (List Byte) → Nat → Nat → Outcome (Nat × Option (List Byte))

/-- The functions of the library, memory.hpp:319–399. -/
def libraryCopies : Copies where
  ua := CopyBits.copyBitsUnalignedToAligned
  au := CopyBits.copyBitsAlignedToUnaligned

/-- `ASSERT_EQ(n, copyBitsUnalignedToAligned(…))` followed by an assertion about the destination. -/
def Copies.expectUa (c : Copies) (src : Option (List Byte)) (off : Nat) (dst : Option (List Byte)) (len n : Nat)
    (expected : Option (List Byte)) : Check Unit := do
  let (k, dst') ← OptionT.lift (c.ua src off dst len)
  ASSERT (k == n)
  ASSERT (dst' == expected)

/-- The same for the other function. -/
def Copies.expectAu (c : Copies) (src dst : Option (List Byte)) (off len n : Nat) (expected : Option (List Byte)) : Check Unit := do
  let (k, dst') ← OptionT.lift (c.au src dst off len)
  ASSERT (k == n)
  ASSERT (dst' == expected)

/-- Only the returned number is looked at. -/
def Copies.expectZero (r : Outcome (Nat × Option (List Byte))) : Check Unit := do
  let (k, _) ← OptionT.lift r
  ASSERT (k == 0)

/-- `TEST(CopyBitsTest, InputsValidation)`, memory_copy.hpp:23–41. (Source and destination are the same array there, which makes no
difference for a length of zero.) -/
def InputsValidation (c : Copies) : Check Unit := do
  let dummy := some [0#8, 0, 0, 0]
  Copies.expectZero (c.ua none 0 dummy 32)                                      -- 33
  Copies.expectZero (c.au none dummy 0 32)                                      -- 34
  Copies.expectZero (c.ua dummy 0 none 32)                                      -- 35
  Copies.expectZero (c.au dummy none 0 32)                                      -- 36
  Copies.expectZero (c.ua dummy 0 dummy 0)                                      -- 39
  Copies.expectZero (c.au dummy dummy 0 0)                                      -- 40

/-- `OneByteAlignedIntoOneAligned`, 49–58. -/
def OneByteAlignedIntoOneAligned (c : Copies) : Check Unit := do
  c.expectUa (some [0x55]) 0 (some [0xFF]) 8 8 (some [0x55])
  c.expectAu (some [0x55]) (some [0x55]) 0 8 8 (some [0x55])

/-- `OneByteAlignedIntoOneUnaligned`, 73–88. -/
def OneByteAlignedIntoOneUnaligned (c : Copies) : Check Unit := do
  c.expectAu (some [0x55]) (some [0xFF]) 1 8 7 (some [0xAB])
  c.expectAu (some [0x55]) (some [0x00]) 1 8 7 (some [0xAA])

/-- `OneByteUnalignedIntoOneAligned`, 103–116. -/
def OneByteUnalignedIntoOneAligned (c : Copies) : Check Unit := do
  c.expectUa (some [0x55]) 1 (some [0xFF]) 7 7 (some [0xAA])
  c.expectUa (some [0x55]) 1 (some [0x00]) 7 7 (some [0x2A])

/-- `TwoBitsUnalignedIntoAligned`, 128–135. -/
def TwoBitsUnalignedIntoAligned (c : Copies) : Check Unit :=
  c.expectUa (some [0xFF]) 6 (some [0x80]) 2 2 (some [0x83])

/-- `TwoBitsAlignedIntoUnaligned`, 147–154. -/
def TwoBitsAlignedIntoUnaligned (c : Copies) : Check Unit :=
  c.expectAu (some [0xFF]) (some [0x01]) 6 2 2 (some [0xC1])

/-- `TwoByteAlignedIntoTwoAligned`, 163–175. -/
def TwoByteAlignedIntoTwoAligned (c : Copies) : Check Unit := do
  c.expectUa (some [0x55, 0x55]) 0 (some [0xFF, 0xFF]) 16 16 (some [0x55, 0x55])
  c.expectAu (some [0x55, 0x55]) (some [0xFF, 0xFF]) 0 16 16 (some [0x55, 0x55])

/-- `TwoByteUnalignedIntoTwoAligned`, 189–205. -/
def TwoByteUnalignedIntoTwoAligned (c : Copies) : Check Unit := do
  c.expectUa (some [0x55, 0x55]) 1 (some [0xFF, 0xFF]) 16 15 (some [0xAA, 0xAA])
  c.expectUa (some [0x55, 0x55]) 1 (some [0x00, 0x00]) 16 15 (some [0x2A, 0xAA])

/-- `TwoByteAlignedIntoTwoUnaligned`, 217–234. -/
def TwoByteAlignedIntoTwoUnaligned (c : Copies) : Check Unit := do
  c.expectAu (some [0xAA, 0xAA]) (some [0xFF, 0xFF]) 1 16 15 (some [0x55, 0x55])
  c.expectAu (some [0xAA, 0xAA]) (some [0x00, 0x00]) 1 16 15 (some [0x55, 0x54])

/-- `StringUnalignedIntoStringAligned`, 240–256: "Hello world", each byte shifted left by one. -/
def StringUnalignedIntoStringAligned (c : Copies) : Check Unit := do
  let expected : List Byte := [0x48, 0x65, 0x6c, 0x6c, 0x6f, 0x20, 0x77, 0x6f, 0x72, 0x6c, 0x64, 0x00]
  let src := expected.map (fun b : Byte => b <<< 1)                                             -- 249–252
  c.expectUa (some src) 1 (some (List.replicate 12 0)) 96 95 (some expected)

/-- `SrcOffsetIsGreaterThanEight`, 269–289. -/
def SrcOffsetIsGreaterThanEight (c : Copies) : Check Unit := do
  c.expectUa (some [0x55, 0x55]) 9 (some [0xFF, 0xFF]) 16 7 (some [0xFF, 0xAA])
  c.expectUa (some [0x55, 0x55]) 9 (some [0x00, 0x00]) 16 7 (some [0x00, 0x2A])

/-- `DstOffsetIsGreaterThanEight`, 302–322. -/
def DstOffsetIsGreaterThanEight (c : Copies) : Check Unit := do
  c.expectAu (some [0x55, 0x55]) (some [0xFF, 0xFF]) 9 16 7 (some [0xFF, 0xAB])
  c.expectAu (some [0x55, 0x55]) (some [0x00, 0x00]) 9 16 7 (some [0x00, 0xAA])

/-- All tests of memory_copy.hpp. -/
def copyTests : List (Copies → Check Unit) :=
  [InputsValidation, OneByteAlignedIntoOneAligned, OneByteAlignedIntoOneUnaligned, OneByteUnalignedIntoOneAligned,
   TwoBitsUnalignedIntoAligned, TwoBitsAlignedIntoUnaligned, TwoByteAlignedIntoTwoAligned, TwoByteUnalignedIntoTwoAligned,
   TwoByteAlignedIntoTwoUnaligned, StringUnalignedIntoStringAligned, SrcOffsetIsGreaterThanEight, DstOffsetIsGreaterThanEight]

/-! ## Pool allocators, `lvs/platform/memory.hpp`

The pool is a singleton, so what a test leaves behind is seen by the next one. -/

/-- An allocator type under test: the state of its pool, `allocate(size)`, `deallocate(ptr, size)`, and the two
constants the tests use. `exceptions` says which of the two forms of the macro at lvs.hpp:40–56 is compiled. -/
structure Allocator (σ : Type) where
  numBlocks : Nat
  blockSize : Nat
  exceptions : Bool
  allocate : σ → Nat → Outcome (Pool.Result × σ)
  deallocate : σ → Nat → Nat → Outcome σ

/-- The five typed tests, memory.hpp:75–161. -/
inductive PoolTest where
  | AllocTooLargeBlock
  | DeallocateNull
  | AllocDealloc
  | AllocTillOutOfMemoryThenDealloc
  | AllocThenDeallocContinuously
  deriving DecidableEq, Repr

namespace Allocator
variable {σ : Type}

/-- `p = allocator.allocate(size); ASSERT_NE(nullptr, p);` An exception also ends the test. -/
def allocOne (a : Allocator σ) (s : σ) (size : Nat) : Outcome (Option Nat × σ) := do
  let (r, s) ← a.allocate s size
  match r with
  | .ptr p => return (if p ≠ 0 then some p else none, s)
  | _ => return (none, s)

/-- `LVS_ASSERT_THROW_IF_EXCEPTIONS_OR_VALUE(allocator.allocate(size), std::bad_alloc, nullptr)`, lvs.hpp:40–56. -/
def allocFails (a : Allocator σ) (s : σ) (size : Nat) : Outcome (Bool × σ) := do
  let (r, s) ← a.allocate s size
  return (if a.exceptions then r == .badAlloc else r == .null || r == .ptr 0, s)

/-- The loops at 116–120 and 129–133: fill the rest of the array `allocations`. -/
def allocAll (a : Allocator σ) : Nat → σ → Outcome (Option (List Nat) × σ)
  | 0, s => .ok (some [], s)
  | n + 1, s => do
    let (p, s) ← a.allocOne s a.blockSize
    match p with
    | none => return (none, s)
    | some p =>
      let (ps, s) ← allocAll a n s
      return (ps.map (p :: ·), s)

/-- The loops at 124–127 and 137–140. -/
def deallocAll (a : Allocator σ) : List Nat → σ → Outcome σ
  | [], s => .ok s
  | p :: ps, s => do
    let s ← a.deallocate s p a.blockSize
    deallocAll a ps s

/-- First half of `AllocTillOutOfMemoryThenDealloc`, 116–127; the second half, 129–140, is the same text. -/
def fillAndEmpty (a : Allocator σ) (s : σ) : Outcome (Bool × σ) := do
  let (ps, s) ← a.allocAll a.numBlocks s                                        -- 116–120
  match ps with
  | none => return (false, s)
  | some ps =>
    let (b, s) ← a.allocFails s a.blockSize                                     -- 122
    if b then return (true, ← a.deallocAll ps s) else return (false, s)         -- 124–127

/-- The loop of `AllocThenDeallocContinuously`, 151–156. -/
def churn (a : Allocator σ) : Nat → σ → Outcome (Bool × σ)
  | 0, s => .ok (true, s)
  | n + 1, s => do
    let (p, s) ← a.allocOne s a.blockSize
    match p with
    | none => return (false, s)
    | some p =>
      let s ← a.deallocate s p a.blockSize
      churn a n s

/-- One test: whether it passes, and the state it leaves. -/
def test (a : Allocator σ) (s : σ) : PoolTest → Outcome (Bool × σ)
  | .AllocTooLargeBlock => a.allocFails s (a.blockSize + 1)                     -- 75–83: `BlockSize` is a `std::size_t`
  | .DeallocateNull => do return (true, ← a.deallocate s 0 a.blockSize)         -- 88–93
  | .AllocDealloc => do                                                         -- 98–105
    let (p, s) ← a.allocOne s 1
    match p with
    | none => return (false, s)
    | some p => return (true, ← a.deallocate s p 1)
  | .AllocTillOutOfMemoryThenDealloc => do                                      -- 111–141
    let (b, s) ← a.fillAndEmpty s
    if b then a.fillAndEmpty s else return (false, s)
  | .AllocThenDeallocContinuously => do                                         -- 147–161
    let (b, s) ← a.churn (a.numBlocks * 2) s
    if b then
      let (p, s) ← a.allocOne s a.blockSize
      match p with
      | none => return (false, s)
      | some p => return (true, ← a.deallocate s p a.blockSize)
    else return (false, s)

/-- A run of tests, in any order and with repetitions (as with `--gtest_shuffle` and `--gtest_repeat`). -/
def run (a : Allocator σ) (s : σ) : List PoolTest → Outcome (List Bool × σ)
  | [] => .ok ([], s)
  | t :: ts => do
    let (b, s) ← a.test s t
    let (bs, s) ← run a s ts
    return (b :: bs, s)

end Allocator

/-- The library's `PoolAllocator` (memory.hpp:199–305). The second part of the state counts calls; `spurious` says how often the compare-exchange of
each call fails for no reason. -/
def libraryAllocator (c : Pool.Cfg) (spurious : Nat → Nat) : Allocator (Pool.State × Nat) where
  numBlocks := c.numBlocks
  blockSize := c.blockSize
  exceptions := c.exceptions
  allocate s size := do
    let (r, p) ← Pool.allocate c s.1 size (spurious s.2)
    return (r, (p, s.2 + 1))
  deallocate s ptr _ := do
    let (_, p) ← Pool.deallocate c s.1 ptr
    return (p, s.2 + 1)

/-! ## Frames, `lvs/media/can_frame.hpp` -/

section Frames
open Can

/-- `TypeParam instance(id, data, dlc)` in a test. -/
def frame (mtu : Nat) (id : BitVec 32) (data : Option (List Byte)) (dlc : Nat) : Check (Frame mtu) :=
  OptionT.lift (Frame.ofData' id data dlc)

/-- `TYPED_TEST_P(FrameTest, Initialization)`, can_frame.hpp:80–90. -/
def Initialization (mtu : Nat) : Check Unit := do
  let f : Frame mtu := Frame.default
  ASSERT (f.id == 0)
  ASSERT (f.getDLC == 0)
  ASSERT (f.timestamp.toMicrosecond == 0)
  ASSERT (f.data.toList.all (· == 0))

/-- `InitWithData`, 95–108. -/
def InitWithData (mtu : Nat) : Check Unit := do
  let f ← frame mtu 1 (some [0, 1, 2, 3, 4, 5, 6, 7, 8]) 5
  ASSERT (f.id == 1)
  ASSERT (f.getDLC == 5)
  ASSERT (f.getDataLength == 5)
  ASSERT (f.data.toList.take 5 == [0, 1, 2, 3, 4])

/-- `InitWithData_NullPtr`, 113–119. -/
def InitWithData_NullPtr (mtu : Nat) : Check Unit := do
  let f ← frame mtu 1 none 5
  ASSERT (f.id == 1)
  ASSERT (f.getDLC == 0)
  ASSERT (f.getDataLength == 0)

/-- The loop of `SetDataLength`, 128–135, for the lengths given. -/
def setLengths {mtu : Nat} : List Nat → Frame mtu → Check (Frame mtu)
  | [], f => pure f
  | i :: is, f => do
    let f ← OptionT.lift (f.setDataLength i)
    if i ≤ Type20MaxFrameSizeBytes then ASSERT (i ≤ f.getDataLength)
    setLengths is f

/-- `SetDataLength`, 125–138. -/
def SetDataLength (mtu : Nat) : Check Unit := do
  let f ← setLengths (List.range (FDMaxFrameSizeBytes + 1)) (Frame.default : Frame mtu)
  ASSERT (mtu ≥ f.getDataLength)

/-- `InitWithDataAndTimestamp`, 143–149. -/
def InitWithDataAndTimestamp (mtu : Nat) : Check Unit := do
  let f : Frame mtu ← OptionT.lift (Frame.ofData 1 none 0 (Time.TimePoint.fromMicrosecond 32))
  ASSERT ((Time.TimePoint.fromMicrosecond 32).eq f.timestamp)

/-- `GetDLCTestLoop`, 151–180: from the given length down to 0. -/
def getDLCTestLoop {mtu : Nat} : Nat → Frame mtu → Check Unit
  | 0, f => do                                                                  -- 172–180
    let f ← OptionT.lift (f.setDataLength 0)
    ASSERT (f.getDLC == 0)
  | i + 1, f => do
    let f ← OptionT.lift (f.setDataLength (i + 1))
    let e ← OptionT.lift (lengthToDlc mtu (if i + 1 < mtu then i + 1 else mtu)) -- 160–167
    ASSERT (f.getDLC == e)
    getDLCTestLoop i f

/-- `GetDLC`, 185–189. -/
def GetDLC (mtu : Nat) : Check Unit := getDLCTestLoop (FDMaxFrameSizeBytes + 1) (Frame.default : Frame mtu)

/-- `DLCToLengthEvil`, 195–201. -/
def DLCToLengthEvil (_mtu : Nat) : Check Unit := ASSERT (dlcToLength FDMaxFrameSizeBytes == 0)

/-- `PriorityHigherThan`, 206–219. -/
def PriorityHigherThan (mtu : Nat) : Check Unit := do
  let lhs ← frame mtu 0 (some [0]) 1
  let rhs ← frame mtu 1 (some [0]) 1
  ASSERT (lhs.priorityHigherThan rhs)
  ASSERT (!rhs.priorityHigherThan lhs)
  ASSERT (!lhs.priorityHigherThan lhs)
  ASSERT (lhs.gt rhs)
  ASSERT (!rhs.gt lhs)
  ASSERT (!lhs.gt lhs)

/-- `PriorityLowerThan`, 224–237. -/
def PriorityLowerThan (mtu : Nat) : Check Unit := do
  let lhs ← frame mtu 0 (some [0]) 1
  let rhs ← frame mtu 1 (some [0]) 1
  ASSERT (rhs.priorityLowerThan lhs)
  ASSERT (!lhs.priorityLowerThan rhs)
  ASSERT (!lhs.priorityLowerThan lhs)
  ASSERT (!lhs.lt rhs)
  ASSERT (rhs.lt lhs)
  ASSERT (!lhs.lt lhs)

/-- `FrameEqual`, 242–250. -/
def FrameEqual (mtu : Nat) : Check Unit := do
  let data := some [0, 1, 2, 3, 5, 6, 7, 8]
  let lhs ← frame mtu 0xFFFFFFFF data 8
  let rhs ← frame mtu 0x1FFFFFFF data 8
  ASSERT (← OptionT.lift (lhs.eq 0 rhs))

/-- `FrameNotEqual`, 255–267. -/
def FrameNotEqual (mtu : Nat) : Check Unit := do
  let data := some [0, 1, 2, 3, 5, 6, 7, 8]
  let baseline ← frame mtu 0x1FFFFFFF data 8
  let length_different ← frame mtu 0x1FFFFFFF data 7
  let data_different ← frame mtu 0x1FFFFFFF (some [0, 1, 2, 3, 5, 6, 7, 9]) 8
  let id_different ← frame mtu 0x1FFFFFF1 data 8
  ASSERT (← OptionT.lift (baseline.ne 0 length_different))
  ASSERT (← OptionT.lift (baseline.ne 0 data_different))
  ASSERT (← OptionT.lift (baseline.ne 0 id_different))

/-- `FrameNotEqualWithFlags`, 272–280. -/
def FrameNotEqualWithFlags (mtu : Nat) : Check Unit := do
  let data := some [0, 1, 2, 3, 5, 6, 7, 8]
  let lhs ← frame mtu 0xFFFFFFFF data 8
  let rhs ← frame mtu 0x1FFFFFFF data 8
  ASSERT (← OptionT.lift (lhs.ne 1 rhs))

/-- All tests of can_frame.hpp (284–296). -/
def frameTests : List (Nat → Check Unit) :=
  [Initialization, InitWithData, InitWithData_NullPtr, InitWithDataAndTimestamp, SetDataLength, GetDLC, DLCToLengthEvil,
   PriorityHigherThan, PriorityLowerThan, FrameEqual, FrameNotEqual, FrameNotEqualWithFlags]

end Frames

/-! ## Durations and times, `lvs/time.hpp`

`abs` is `std::abs` and `w` the width of the microsecond types, see `Model/Time`. -/

section Times
open Time

/-- `DefaultOperations`, time.hpp:67–102; the same text again at 184–219 and 295–330. `dflt` is the value of a default-constructed
object and `mk` that of `fromMicrosecond`. Objects: 0 `default_ctor`, 1 `assignFrom`, 2 `copyCtorLhs`, 3 `moved_into`, 4 `move_from`,
5 `destructed`. -/
def defaultOperations (abs : Nat → Int → Outcome Int) (w : Nat) (dflt : Int) (mk : Int → Int) : Check Unit := do
  let st : Store := fun _ => dflt
  ASSERT (st 0 == 0)                                                            -- 75
  let st := st.set 1 (mk 2)                                                     -- 78
  let st ← OptionT.lift ((Stmt.copy 0 1).exec abs w st)                         -- 79
  ASSERT (st 0 == 2)
  ASSERT (st 1 == 2)
  let st ← OptionT.lift ((Stmt.copy 2 0).exec abs w st)                         -- 84
  ASSERT (st 2 == 2)
  let st ← OptionT.lift ((Stmt.moveConstruct 3 0).exec abs w st)                -- 88
  ASSERT (st 3 == 2)
  ASSERT (st 0 == 0)
  let st := st.set 4 (mk 2)                                                     -- 93
  let st ← OptionT.lift ((Stmt.moveAssign 0 4).exec abs w st)                   -- 94
  ASSERT (st 0 == 2)
  ASSERT (st 4 == 0)
  ASSERT (st 5 == 0)                                                            -- 100

/-- `ComparisonOperators`, 107–116, for a duration type. -/
def DurationTest.comparisonOperators : Check Unit := do
  let lhs := Duration.default
  let rhs := Duration.default
  ASSERT (lhs.eq rhs)
  ASSERT (!lhs.ne rhs)
  ASSERT (!lhs.lt rhs)
  ASSERT (!lhs.gt rhs)
  ASSERT (lhs.le rhs)
  ASSERT (lhs.ge rhs)

/-- The same for a time type. -/
def TimeTest.comparisonOperators : Check Unit := do
  let lhs := TimePoint.default
  let rhs := TimePoint.default
  ASSERT (lhs.eq rhs)
  ASSERT (!lhs.ne rhs)
  ASSERT (!lhs.lt rhs)
  ASSERT (!lhs.gt rhs)
  ASSERT (lhs.le rhs)
  ASSERT (lhs.ge rhs)

/-- `Concept_fromMicrosecond`, 121–124. -/
def DurationTest.concept_fromMicrosecond : Check Unit := ASSERT ((Duration.fromMicrosecond 100).toMicrosecond == 100)

/-- The same for a time type. -/
def TimeTest.concept_fromMicrosecond : Check Unit := ASSERT ((TimePoint.fromMicrosecond 100).toMicrosecond == 100)

/-- `SaturatedAdd`, 129–134. -/
def DurationTest.saturatedAdd (abs : Nat → Int → Outcome Int) (w : Nat) : Check Unit := do
  let i ← OptionT.lift ((Duration.fromMicrosecond (intMax w)).add abs w (Duration.fromMicrosecond 1))
  ASSERT (i.toMicrosecond == intMax w)

/-- The same for a time type. -/
def TimeTest.saturatedAdd (w : Nat) : Check Unit := do
  let i ← OptionT.lift ((TimePoint.fromMicrosecond (uintMax w)).add w (Duration.fromMicrosecond 1))
  ASSERT (i.toMicrosecond == uintMax w)

/-- `SaturatedSubtract`, 139–144. -/
def DurationTest.saturatedSubtract (abs : Nat → Int → Outcome Int) (w : Nat) : Check Unit := do
  let i ← OptionT.lift ((Duration.fromMicrosecond (intMin w)).sub abs w (Duration.fromMicrosecond 1))
  ASSERT (i.toMicrosecond == intMin w)

/-- The same for a time type, whose minimum is 0. -/
def TimeTest.saturatedSubtract (w : Nat) : Check Unit := do
  let i ← OptionT.lift ((TimePoint.fromMicrosecond 0).sub w (Duration.fromMicrosecond 1))
  ASSERT (i.toMicrosecond == 0)

/-- `GetMaximum`, 149–153. -/
def DurationTest.getMaximum (w : Nat) : Check Unit := ASSERT ((Duration.fromMicrosecond (intMax w)).eq (Duration.getMaximum w))

/-- The same for a time type. -/
def TimeTest.getMaximum (w : Nat) : Check Unit := ASSERT ((TimePoint.fromMicrosecond (uintMax w)).eq (TimePoint.getMaximum w))

/-- `AbsoluteValue`, 224–231. -/
def DurationTest.absoluteValue (abs : Nat → Int → Outcome Int) (w : Nat) : Check Unit := do
  let a ← OptionT.lift ((Duration.fromMicrosecond (-1)).getAbs abs w)
  ASSERT (a.toMicrosecond == 1)
  let a ← OptionT.lift ((Duration.fromMicrosecond 1).getAbs abs w)
  ASSERT (a.toMicrosecond == 1)

/-- `ArithmeticOperators`, 236–265. -/
def DurationTest.arithmeticOperators (abs : Nat → Int → Outcome Int) (w : Nat) : Check Unit := do
  let lhs ← OptionT.lift ((Duration.fromMicrosecond 1).add abs w (Duration.fromMicrosecond 1))       -- 240
  ASSERT ((Duration.fromMicrosecond 2).eq lhs)
  let lhs ← OptionT.lift (lhs.add abs w (Duration.getMaximum w))                                    -- 241
  ASSERT ((Duration.getMaximum w).eq lhs)
  let lhs ← OptionT.lift (lhs.sub abs w (Duration.fromMicrosecond 10))                              -- 243
  let e ← OptionT.lift ((Duration.getMaximum w).sub abs w (Duration.fromMicrosecond 10))            -- 244
  ASSERT (e.eq lhs)
  let n ← OptionT.lift ((Duration.fromMicrosecond 1).neg w)                                         -- 245
  ASSERT ((Duration.fromMicrosecond (-1)).eq n)
  let n ← OptionT.lift ((Duration.getMaximum w).neg w)                                              -- 248
  ASSERT ((Duration.fromMicrosecond (intMin w + 1)).eq n)
  let m ← OptionT.lift ((Duration.getMaximum w).sub abs w (Duration.fromMicrosecond 1))             -- 251
  let n ← OptionT.lift (m.neg w)
  ASSERT ((Duration.fromMicrosecond (intMin w + 2)).eq n)
  let n ← OptionT.lift ((Duration.fromMicrosecond (intMin w)).neg w)                                -- 257
  ASSERT ((Duration.fromMicrosecond (intMax w)).eq n)
  let n ← OptionT.lift ((Duration.fromMicrosecond (intMin w + 1)).neg w)                            -- 260
  ASSERT ((Duration.fromMicrosecond (intMax w)).eq n)
  let n ← OptionT.lift ((Duration.fromMicrosecond (intMin w + 2)).neg w)                            -- 263
  ASSERT ((Duration.fromMicrosecond (intMax w - 1)).eq n)

/-- `ArithmeticOperators`, 335–347. -/
def TimeTest.arithmeticOperators (w : Nat) : Check Unit := do
  let t ← OptionT.lift ((TimePoint.fromMicrosecond 1).add w (Duration.fromMicrosecond 1))           -- 337
  ASSERT ((TimePoint.fromMicrosecond 2).eq t)
  let t ← OptionT.lift ((TimePoint.fromMicrosecond 0).add w (Duration.getMaximum w))                -- 340
  ASSERT ((Duration.getMaximum w).eq (Duration.fromMicrosecond (castS w t.toMicrosecond)))          -- 341–343
  let t ← OptionT.lift ((TimePoint.getMaximum w).add w (Duration.getMaximum w))                     -- 344
  ASSERT ((TimePoint.getMaximum w).eq t)
  let t ← OptionT.lift ((TimePoint.fromMicrosecond 1).sub w (Duration.fromMicrosecond 1))           -- 345
  ASSERT ((TimePoint.fromMicrosecond 0).eq t)

/-- The tests for a duration type: `DurationOrTimeTest` (155–161) and `DurationTest` (269–272). -/
def durationTests (abs : Nat → Int → Outcome Int) (w : Nat) : List (Check Unit) :=
  [DurationTest.comparisonOperators, defaultOperations abs w Duration.default.usec fun v => (Duration.fromMicrosecond v).usec,
   DurationTest.concept_fromMicrosecond, DurationTest.saturatedAdd abs w, DurationTest.getMaximum w, DurationTest.saturatedSubtract abs w,
   DurationTest.absoluteValue abs w, DurationTest.arithmeticOperators abs w]

/-- The tests for a time type: `DurationOrTimeTest` (155–161) and `TimeTest` (349–351). -/
def timeTests (abs : Nat → Int → Outcome Int) (w : Nat) : List (Check Unit) :=
  [TimeTest.comparisonOperators, defaultOperations abs w TimePoint.default.usec fun v => (TimePoint.fromMicrosecond v).usec,
   TimeTest.concept_fromMicrosecond, TimeTest.saturatedAdd w, TimeTest.getMaximum w, TimeTest.saturatedSubtract w,
   TimeTest.arithmeticOperators w]

end Times

end Uavcan.Suite
