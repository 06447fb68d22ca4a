import Verif.Model.Suite

/-!
# Model of the tests for CAN frames, for any class

`libuavcan_validation_suite/include/lvs/media/can_frame.hpp` (in this file "can_frame.hpp"): typed tests "for any libuavcan::media::CAN::Frame object you implement in your media layer" (7–8).
`Model/Suite` has these tests for the class template of the library; here they are for any class. A class is what its member functions do.

Simplifications: member functions are total functions (undefined behaviour in a class under test is not modelled); numbers are natural numbers.
-/

namespace Uavcan.FrameTest
open Suite

/-- A class for frames of at most `mtu` bytes with objects of type `σ`, and what can_frame.hpp uses of it. -/
structure FrameClass (σ : Type) (mtu : Nat) where
  dflt : σ
  /-- Constructor from identifier, data (`none` is a null pointer) and DLC, 98, 115, 209. -/
  ofData : Nat → Option (List Byte) → Nat → σ
  /-- Constructor with a timestamp in microseconds, 146. -/
  ofDataAt : Nat → Option (List Byte) → Nat → Nat → σ
  id : σ → Nat
  byte : σ → Nat → Byte
  timestamp : σ → Nat
  getDLC : σ → Nat
  getDataLength : σ → Nat
  setDataLength : σ → Nat → σ
  dlcToLength : Nat → Nat
  priorityHigherThan : σ → σ → Bool
  gt : σ → σ → Bool
  priorityLowerThan : σ → σ → Bool
  lt : σ → σ → Bool
  eq : σ → σ → Bool
  ne : σ → σ → Bool
  /-- The object of the library's class `Frame<MTUBytes>` it is: 157 and 188 bind a reference to it, so the class is `Frame<MTUBytes>` or is derived from it. -/
  base : σ → Can.Frame mtu

section
variable {σ : Type} {mtu : Nat} (c : FrameClass σ mtu)

/-- `Initialization`, can_frame.hpp 80–90. -/
def initialization : Bool :=
  c.id c.dflt == 0 && c.getDLC c.dflt == 0 && c.timestamp c.dflt == 0 && (List.range mtu).all fun i => c.byte c.dflt i == 0

/-- `InitWithData`, can_frame.hpp 95–108. -/
def initWithData : Bool :=
  let f := c.ofData 1 (some [0, 1, 2, 3, 4, 5, 6, 7, 8]) 5
  c.id f == 1 && c.getDLC f == 5 && c.getDataLength f == 5 && (List.range (c.getDataLength f)).all fun i => (c.byte f i).toNat == i

/-- `InitWithData_NullPtr`, can_frame.hpp 113–119. -/
def initWithNull : Bool :=
  let f := c.ofData 1 none 5
  c.id f == 1 && c.getDLC f == 0 && c.getDataLength f == 0

/-- The loop of `SetDataLength`, can_frame.hpp 128–135; `none` if an assertion fails. -/
def setLengths : List Nat → σ → Option σ
  | [], f => some f
  | i :: is, f =>
    let f := c.setDataLength f i
    if i ≤ Can.Type20MaxFrameSizeBytes ∧ ¬ i ≤ c.getDataLength f then none else setLengths is f

/-- `SetDataLength`, can_frame.hpp 125–138. -/
def setDataLength : Bool :=
  match setLengths c (List.range (Can.FDMaxFrameSizeBytes + 1)) c.dflt with
  | none => false
  | some f => decide (mtu ≥ c.getDataLength f)

/-- `InitWithDataAndTimestamp`, can_frame.hpp 143–149. -/
def initWithTimestamp : Bool := c.timestamp (c.ofDataAt 1 none 0 32) == 32

/-- `GetDLC`, can_frame.hpp 185–189: the loop (151–180) calls the functions of the library's class, which are not virtual. -/
def getDLC : Bool := passed (getDLCTestLoop (Can.FDMaxFrameSizeBytes + 1) (c.base c.dflt))

/-- `DLCToLengthEvil`, can_frame.hpp 195–201. -/
def dlcToLengthEvil : Bool := c.dlcToLength Can.FDMaxFrameSizeBytes == 0

/-- `PriorityHigherThan`, can_frame.hpp 206–219. -/
def priorityHigherThan : Bool :=
  let lhs := c.ofData 0 (some [0]) 1
  let rhs := c.ofData 1 (some [0]) 1
  c.priorityHigherThan lhs rhs && !c.priorityHigherThan rhs lhs && !c.priorityHigherThan lhs lhs && c.gt lhs rhs && !c.gt rhs lhs && !c.gt lhs lhs

/-- `PriorityLowerThan`, can_frame.hpp 224–237. -/
def priorityLowerThan : Bool :=
  let lhs := c.ofData 0 (some [0]) 1
  let rhs := c.ofData 1 (some [0]) 1
  c.priorityLowerThan rhs lhs && !c.priorityLowerThan lhs rhs && !c.priorityLowerThan lhs lhs && !c.lt lhs rhs && c.lt rhs lhs && !c.lt lhs lhs

/-- `FrameEqual`, can_frame.hpp 242–250. -/
def frameEqual : Bool :=
  c.eq (c.ofData 0xFFFFFFFF (some [0, 1, 2, 3, 5, 6, 7, 8]) 8) (c.ofData 0x1FFFFFFF (some [0, 1, 2, 3, 5, 6, 7, 8]) 8)

/-- `FrameNotEqual`, can_frame.hpp 255–267. -/
def frameNotEqual : Bool :=
  let baseline := c.ofData 0x1FFFFFFF (some [0, 1, 2, 3, 5, 6, 7, 8]) 8
  c.ne baseline (c.ofData 0x1FFFFFFF (some [0, 1, 2, 3, 5, 6, 7, 8]) 7) &&
  c.ne baseline (c.ofData 0x1FFFFFFF (some [0, 1, 2, 3, 5, 6, 7, 9]) 8) &&
  c.ne baseline (c.ofData 0x1FFFFFF1 (some [0, 1, 2, 3, 5, 6, 7, 8]) 8)

/-- `FrameNotEqualWithFlags`, can_frame.hpp 272–280: with the library's class, whatever class is under test. -/
def frameNotEqualWithFlags (_c : FrameClass σ mtu) : Bool := passed (FrameNotEqualWithFlags mtu)

/-- All tests pass, can_frame.hpp 284–296. -/
def passes : Bool :=
  initialization c && initWithData c && initWithNull c && initWithTimestamp c && setDataLength c && getDLC c && dlcToLengthEvil c &&
  priorityHigherThan c && priorityLowerThan c && frameEqual c && frameNotEqual c && frameNotEqualWithFlags c

end

end Uavcan.FrameTest
