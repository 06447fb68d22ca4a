import Verif.Model.Time

/-!
# Model of `libuavcan/include/libuavcan/media/can.hpp`

`Frame mtu` models `CAN::Frame<MTUBytesParam, FlagBitsCompareMask>` (lines 144–487). The array `data`
has `mtu` bytes by type, as in C++. A DLC is a natural number: the enumeration's underlying type is
`std::uint_fast8_t`, whose width differs between the targets, and every value of it is a legal `FrameDLC`
(line 88).

Simplification: `std::copy` of an object onto itself (self-assignment, line 451) is taken as having no
effect, as `memmove` has; the standard leaves it undefined.
-/

namespace Uavcan.Can
open Time

abbrev Byte := BitVec 8

/-- `TailByteSizeBytes`, can.hpp:27. -/
def TailByteSizeBytes : Nat := 1
/-- `TypeFD::MaxFrameSizeBytes`, can.hpp:41. -/
def FDMaxFrameSizeBytes : Nat := 64
/-- `TypeFD::PayloadLengthToFrameLength`, can.hpp:47–50. -/
def FDPayloadLengthToFrameLength : List Nat :=
  [0,  1,  2,  3,  4,  5,  6,  7,  11, 11, 11, 11, 15, 15, 15, 15, 19, 19, 19, 19, 23, 23,
   23, 23, 31, 31, 31, 31, 31, 31, 31, 31, 47, 47, 47, 47, 47, 47, 47, 47, 47, 47, 47, 47,
   47, 47, 47, 47, 63, 63, 63, 63, 63, 63, 63, 63, 63, 63, 63, 63, 63, 63, 63, 63]
/-- `Type2_0::MaxFrameSizeBytes`, can.hpp:63. -/
def Type20MaxFrameSizeBytes : Nat := 8
/-- `Type2_0::PayloadLengthToFrameLength`, can.hpp:69. -/
def Type20PayloadLengthToFrameLength : List Nat := [0, 1, 2, 3, 4, 5, 6, 7]

/-- `length_to_dlc_lookup`, can.hpp:181–185. -/
def lengthToDlcTable : List Nat :=
  [0,  1,  2,  3,  4,  5,  6,  7,  8,  9,  9,  9,  9,
   10, 10, 10, 10, 11, 11, 11, 11, 12, 12, 12, 12, 13,
   13, 13, 13, 13, 13, 13, 13, 14, 14, 14, 14, 14, 14,
   14, 14, 14, 14, 14, 14, 14, 14, 14, 14, 15, 15, 15,
   15, 15, 15, 15, 15, 15, 15, 15, 15, 15, 15, 15, 15]

/-- `dlc_to_length_lookup`, can.hpp:218. -/
def dlcToLengthTable : List Nat := [0, 1, 2, 3, 4, 5, 6, 7, 8, 12, 16, 20, 24, 32, 48, 64]

/-- Array indexing, `a[i]`: undefined outside the array. -/
def index {α : Type} (a : List α) (i : Nat) : Outcome α :=
  match a[i]? with
  | some x => .ok x
  | none => .ub .outOfBounds

/-- `lengthToDlc`, can.hpp:175–203. -/
def lengthToDlc (mtu length : Nat) : Outcome Nat :=
  if length > mtu then index lengthToDlcTable mtu      -- 191–194
  else index lengthToDlcTable length                   -- 200

/-- `dlcToLength`, can.hpp:212–232. (The table has 16 entries, line 220, so the lookup is in bounds.) -/
def dlcToLength (dlc : Nat) : Nat :=
  if dlc < dlcToLengthTable.length then dlcToLengthTable.getD dlc 0 else 0

/-- `MaskExtID`, can.hpp:153. -/
def MaskExtID : BitVec 32 := 0x1FFFFFFF#32

/-- `MaskIdWithFlags`, can.hpp:158–159. -/
def MaskIdWithFlags (flagMask : BitVec 8) : BitVec 32 := MaskExtID ||| (flagMask.setWidth 32 <<< 29)

/-- The data members of `CAN::Frame`, can.hpp:247, 253, 291, 298. -/
structure Frame (mtu : Nat) where
  id : BitVec 32
  data : Vector Byte mtu
  dlc : Nat
  timestamp : TimePoint
  deriving DecidableEq

/-- `std::copy(src, src + n, dst)` for byte arrays, one byte at a time starting at index `i`; undefined
when it leaves either array (used at can.hpp:320, 346, 451). -/
def copyBytes {m : Nat} (src : List Byte) : (n i : Nat) → Vector Byte m → Outcome (Vector Byte m)
  | 0, _, dst => .ok dst
  | n + 1, i, dst => do
    let b ← index src i
    if h : i < m then copyBytes src n (i + 1) (dst.set i b) else .ub .outOfBounds

/-- The loop of `std::equal(a, a + n, b)`, one byte at a time from index `i`, stopping at the first
difference (used at can.hpp:415). -/
def equalBytes {m : Nat} (a b : Vector Byte m) : (n i : Nat) → Outcome Bool
  | 0, _ => .ok true
  | n + 1, i =>
    if h : i < m then (if a[i] = b[i] then equalBytes a b n (i + 1) else .ok false)
    else .ub .outOfBounds

/-- `std::equal(a, a + n, b)` with arrays `a` and `b` (can.hpp:415). Forming `a + n` is undefined when it is
more than one past the end, whatever the bytes are. -/
def equal {m : Nat} (a b : Vector Byte m) (n : Nat) : Outcome Bool :=
  if n ≤ m then equalBytes a b n 0 else .ub .outOfBounds

namespace Frame
variable {mtu : Nat}

/-- Default constructor, can.hpp:300–305. -/
def default : Frame mtu :=
  { id := 0, data := Vector.replicate mtu 0, dlc := 0, timestamp := TimePoint.default }

/-- Copy constructor, can.hpp:312–322 (`rhs.data` is an array, so the null check always passes). -/
def copyOf (rhs : Frame mtu) : Outcome (Frame mtu) := do
  let data ← copyBytes rhs.data.toList mtu 0 (Vector.replicate mtu 0)
  return { id := rhs.id, data := data, dlc := rhs.dlc, timestamp := rhs.timestamp }

/-- Constructor from data, can.hpp:333–348. A null `can_data` is `none`; otherwise the list is the
readable memory at `can_data`. -/
def ofData (canId : BitVec 32) (canData : Option (List Byte)) (inDlc : Nat) (ts : TimePoint) :
    Outcome (Frame mtu) :=
  match canData with
  | none => .ok { id := canId, data := Vector.replicate mtu 0, dlc := 0, timestamp := ts }       -- 341
  | some src => do
    let data ← copyBytes src (dlcToLength inDlc) 0 (Vector.replicate mtu 0)                      -- 345–346
    return { id := canId, data := data, dlc := inDlc, timestamp := ts }

/-- Constructor without timestamp, can.hpp:357–359. -/
def ofData' (canId : BitVec 32) (canData : Option (List Byte)) (inDlc : Nat) : Outcome (Frame mtu) :=
  ofData canId canData inDlc (TimePoint.fromMicrosecond 0)

/-- `getDLC`, can.hpp:366–369. -/
def getDLC (f : Frame mtu) : Nat := f.dlc

/-- `setDataLength`, can.hpp:379–382. -/
def setDataLength (f : Frame mtu) (n : Nat) : Outcome (Frame mtu) := do
  let dlc ← lengthToDlc mtu n
  return { f with dlc := dlc }

/-- `getDataLength`, can.hpp:389–392. -/
def getDataLength (f : Frame mtu) : Nat := dlcToLength f.dlc

/-- `operator==`, can.hpp:412–416. -/
def eq (flagMask : BitVec 8) (l r : Frame mtu) : Outcome Bool :=
  if l.id &&& MaskIdWithFlags flagMask = r.id &&& MaskIdWithFlags flagMask then
    if l.dlc = r.dlc then equal l.data r.data (dlcToLength l.dlc) else .ok false
  else .ok false

/-- `operator!=`, can.hpp:401–404. -/
def ne (flagMask : BitVec 8) (l r : Frame mtu) : Outcome Bool := (fun b => !b) <$> eq flagMask l r

/-- `priorityHigherThan`, can.hpp:468–474. -/
def priorityHigherThan (l r : Frame mtu) : Bool := (l.id &&& MaskExtID) < (r.id &&& MaskExtID)

/-- `priorityLowerThan`, can.hpp:483–486. -/
def priorityLowerThan (l r : Frame mtu) : Bool := r.priorityHigherThan l

/-- `operator<`, can.hpp:423–426. -/
def lt (l r : Frame mtu) : Bool := l.priorityLowerThan r

/-- `operator>`, can.hpp:433–436. -/
def gt (l r : Frame mtu) : Bool := l.priorityHigherThan r

/-- `operator=`, can.hpp:444–454. -/
def assign (l rhs : Frame mtu) : Outcome (Frame mtu) := do
  let data ← copyBytes rhs.data.toList mtu 0 l.data
  return { id := rhs.id, timestamp := rhs.timestamp, dlc := rhs.dlc, data := data }

end Frame

/-! ## Programs over frames -/

/-- What a program can do to a store of frames through the public interface. -/
inductive FrameOp where
  /-- `Frame f;` (300) -/
  | mkDefault (d : Nat)
  /-- `Frame f(id, data, dlc, ts);` (333) -/
  | mkOfData (d : Nat) (id : BitVec 32) (data : Option (List Byte)) (dlc : Nat) (ts : TimePoint)
  /-- `Frame f(g);` (312) -/
  | mkCopy (d s : Nat)
  /-- `f = g;` (444) -/
  | assign (d s : Nat)
  /-- `f.setDataLength(n);` (379) -/
  | setDataLength (d n : Nat)
  /-- `f.id = v;` (public member, 247) -/
  | writeId (d : Nat) (v : BitVec 32)
  /-- `f.data[i] = v;` (public member, 253) -/
  | writeData (d i : Nat) (v : Byte)
  /-- `f.timestamp = t;` (public member, 298) -/
  | writeTimestamp (d : Nat) (t : TimePoint)

/-- Frames by object name. -/
abbrev FrameStore (mtu : Nat) := Nat → Frame mtu

/-- Write one object. -/
def FrameStore.set {mtu : Nat} (st : FrameStore mtu) (d : Nat) (f : Frame mtu) : FrameStore mtu :=
  fun j => if j = d then f else st j

/-- Effect of one operation (dispatch to the functions above). -/
def FrameOp.exec {mtu : Nat} (st : FrameStore mtu) : FrameOp → Outcome (FrameStore mtu)
  | .mkDefault d => .ok (st.set d Frame.default)
  | .mkOfData d id data dlc ts => do return st.set d (← Frame.ofData id data dlc ts)
  | .mkCopy d s => do return st.set d (← (st s).copyOf)
  | .assign d s => do return st.set d (← (st d).assign (st s))
  | .setDataLength d n => do return st.set d (← (st d).setDataLength n)
  | .writeId d v => .ok (st.set d { st d with id := v })
  | .writeData d i v =>
    if h : i < mtu then .ok (st.set d { st d with data := (st d).data.set i v }) else .ub .outOfBounds
  | .writeTimestamp d t => .ok (st.set d { st d with timestamp := t })

/-- A program. -/
def FrameOp.run {mtu : Nat} (st : FrameStore mtu) : List FrameOp → Outcome (FrameStore mtu)
  | [] => .ok st
  | c :: cs => do
    let st' ← c.exec st
    FrameOp.run st' cs

end Uavcan.Can
