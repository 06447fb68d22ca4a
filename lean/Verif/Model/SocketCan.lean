import Verif.Model.Can
import Verif.Model.Result

/-!
# Model of the SocketCAN example: one interface

`test/linux/example/media_on_linux/SocketCANInterface.{hpp,cpp}`. System calls are answered by the caller of the
model (the answers are universally quantified in the theorems). `errno` is part of the answer. Widths are those of
x86-64 Linux.

Simplified away: trace output, and everything the class never looks at again (message flags, addresses). `DLC` values are
bytes (`std::uint_fast8_t` is `unsigned char` there).
-/

namespace Uavcan.SocketCan
open Can Time

/-- `SocketCANInterface::FrameType`, SocketCANInterface.hpp:56: `Frame<TypeFD::MaxFrameSizeBytes>`. -/
abbrev FrameT := Frame 64

example : FDMaxFrameSizeBytes = 64 := rfl

/-- `TxFramesLen` and `RxFramesLen`, SocketCANInterface.hpp:53–54. -/
abbrev FramesLen : Nat := 4

/-- `struct canfd_frame` of `<linux/can.h>`, the type of the buffers (SocketCANInterface.hpp:58, 65). -/
structure CanfdFrame where
  can_id : BitVec 32
  len : BitVec 8
  flags : BitVec 8
  res0 : BitVec 8
  res1 : BitVec 8
  data : Vector Byte 64
  deriving DecidableEq

/-- `CAN_EFF_FLAG` of `<linux/can.h>`. -/
def CAN_EFF_FLAG : BitVec 32 := 0x80000000#32
/-- `CAN_ERR_FLAG` of `<linux/can.h>`. -/
def CAN_ERR_FLAG : BitVec 32 := 0x20000000#32
/-- `CAN_EFF_MASK` of `<linux/can.h>`. -/
def CAN_EFF_MASK : BitVec 32 := 0x1FFFFFFF#32
/-- `CAN_ERR_TX_TIMEOUT` of `<linux/can/error.h>`. -/
def CAN_ERR_TX_TIMEOUT : BitVec 32 := 0x001#32
/-- `CAN_ERR_LOSTARB` of `<linux/can/error.h>`. -/
def CAN_ERR_LOSTARB : BitVec 32 := 0x002#32
/-- `CAN_ERR_CRTL` of `<linux/can/error.h>`. -/
def CAN_ERR_CRTL : BitVec 32 := 0x004#32
/-- `CAN_ERR_PROT` of `<linux/can/error.h>`. -/
def CAN_ERR_PROT : BitVec 32 := 0x008#32
/-- `CAN_ERR_TRX` of `<linux/can/error.h>`. -/
def CAN_ERR_TRX : BitVec 32 := 0x010#32
/-- `CAN_ERR_ACK` of `<linux/can/error.h>`. -/
def CAN_ERR_ACK : BitVec 32 := 0x020#32
/-- `CAN_ERR_BUSOFF` of `<linux/can/error.h>`. -/
def CAN_ERR_BUSOFF : BitVec 32 := 0x040#32
/-- `CAN_ERR_BUSERROR` of `<linux/can/error.h>`. -/
def CAN_ERR_BUSERROR : BitVec 32 := 0x080#32
/-- `CAN_ERR_RESTARTED` of `<linux/can/error.h>`. -/
def CAN_ERR_RESTARTED : BitVec 32 := 0x100#32

/-- `EAGAIN` and `EWOULDBLOCK` of Linux. -/
def EAGAIN : Int := 11
/-- `ENOBUFS` of Linux. -/
def ENOBUFS : Int := 105

/-- `struct Statistics`, SocketCANInterface.hpp:38–51; all members are `std::uint64_t`. -/
structure Statistics where
  rx_total : BitVec 64 := 0
  rx_dropped : BitVec 64 := 0
  err_tx_timeout : BitVec 64 := 0
  err_lostarb : BitVec 64 := 0
  err_crtl : BitVec 64 := 0
  err_prot : BitVec 64 := 0
  err_trx : BitVec 64 := 0
  err_ack : BitVec 64 := 0
  err_bussoff : BitVec 64 := 0
  err_buserror : BitVec 64 := 0
  err_restarted : BitVec 64 := 0
  deriving DecidableEq

/-- The data members of `SocketCANInterface` that matter, SocketCANInterface.hpp:61–65. -/
structure Iface where
  index : Nat
  name : String
  fd : Int
  stats : Statistics
  bufs : Vector CanfdFrame FramesLen
  deriving DecidableEq

/-- The constructor, SocketCANInterface.cpp:47–68: `stats_()` and `trx_socketcan_frames_()` are value-initialised. -/
def Iface.mk' (index : Nat) (name : String) (fd : Int) : Iface :=
  { index := index, name := name, fd := fd, stats := {},
    bufs := Vector.replicate FramesLen ⟨0, 0, 0, 0, 0, Vector.replicate 64 0⟩ }

/-- Answer of a system call: return value and `errno`. -/
structure SysAns where
  res : Int
  errno : Int
  deriving DecidableEq

/-- The loop of `write`, SocketCANInterface.cpp:108–118, for the remaining `n` frames from index `i` on.
`set_message_length` (40–43) stores the *DLC* in `len`. -/
def writeLoop (frames : Vector FrameT FramesLen) : (n i : Nat) → Vector CanfdFrame FramesLen →
    Outcome (Vector CanfdFrame FramesLen)
  | 0, _, bufs => .ok bufs
  | n + 1, i, bufs =>
    if h : i < FramesLen then do                                                  -- 110–111
      let frame := frames[i]
      let can_id := CAN_EFF_FLAG ||| (frame.id &&& MaskExtID)                     -- 114
      let len := BitVec.ofNat 8 frame.getDLC                                      -- 115–116
      let data ← copyBytes frame.data.toList frame.getDataLength 0 bufs[i].data   -- 117
      writeLoop frames n (i + 1) (bufs.set i { bufs[i] with can_id := can_id, len := len, data := data })
    else .ub .outOfBounds

/-- What `write` leaves behind: the result, `out_frames_written`, the interface, and the frames given to `sendmmsg`. -/
structure WriteOut where
  result : Result
  written : Nat
  iface : Iface
  submitted : List CanfdFrame

/-- `write`, SocketCANInterface.cpp:96–139; `ans` is the answer of `sendmmsg`. -/
def Iface.write (s : Iface) (frames : Vector FrameT FramesLen) (frames_len : Nat) (ans : SysAns) : Outcome WriteOut :=
  if frames_len = 0 then                                                          -- 103–106
    .ok { result := .BadArgument, written := 0, iface := s, submitted := [] }
  else do
    let bufs ← writeLoop frames frames_len 0 s.bufs                               -- 108–118
    let s' := { s with bufs := bufs }
    let sent := bufs.toList.take frames_len                                       -- 120
    if ans.res ≤ 0 then                                                           -- 122
      if ans.errno = ENOBUFS ∨ ans.errno = EAGAIN then                            -- 124
        return { result := .BufferFull, written := 0, iface := s', submitted := sent }
      else return { result := .Failure, written := 0, iface := s', submitted := sent }
    else
      let written := ans.res.toNat                                                -- 130
      if written < frames_len then
        return { result := .SuccessPartial, written := written, iface := s', submitted := sent }
      else return { result := .Success, written := written, iface := s', submitted := sent }

/-- One control message as `read` sees it. -/
inductive Cmsg where
  /-- level `SOL_SOCKET`, type `SO_TIMESTAMP`: a `timeval` -/
  | timestamp (sec usec : BitVec 64)
  /-- level `SOL_SOCKET`, type `SO_RXQ_OVFL`: the number of frames dropped since the socket was opened -/
  | rxqOvfl (drops : BitVec 32)
  /-- anything else -/
  | other
  deriving DecidableEq

/-- One message received by `recvmmsg`: a `can_frame` (16 bytes, `classic`) or a `canfd_frame` (72 bytes), and control
messages. For a classic frame only the first 8 data bytes mean anything. -/
structure RxMsg where
  classic : Bool
  frame : CanfdFrame
  cmsgs : List Cmsg
  deriving DecidableEq

/-- Answer of `recvmmsg`: return value, `errno` and the messages received. -/
structure RecvAns where
  res : Int
  errno : Int
  msgs : List RxMsg

/-- The kernel stores a message in a buffer: all of it, or the first 16 bytes. -/
def storeMsg (old : CanfdFrame) (m : RxMsg) : CanfdFrame :=
  if m.classic then
    { m.frame with data := Vector.ofFn fun k : Fin 64 => if k.val < 8 then m.frame.data[k] else old.data[k] }
  else m.frame

/-- The kernel stores the messages in the four buffers in order, from buffer `i` on. -/
def storeMsgs : List RxMsg → (i : Nat) → Vector CanfdFrame FramesLen → Vector CanfdFrame FramesLen
  | [], _, bufs => bufs
  | m :: ms, i, bufs => if h : i < FramesLen then storeMsgs ms (i + 1) (bufs.set i (storeMsg bufs[i] m)) else bufs

/-- The control message loop, SocketCANInterface.cpp:166–193. Returns timestamp and statistics. -/
def readCmsgs (timestamp : TimePoint) (stats : Statistics) : List Cmsg → TimePoint × Statistics
  | [] => (timestamp, stats)
  | .timestamp sec usec :: cs =>                                                  -- 170–176
    readCmsgs (TimePoint.fromMicrosecond ((sec * 1000000#64 + usec).toNat : Int)) stats cs
  | .rxqOvfl drops :: cs =>                                                       -- 177–180
    readCmsgs timestamp { stats with rx_dropped := stats.rx_dropped + drops.setWidth 64 } cs
  | .other :: cs => readCmsgs timestamp stats cs

/-- `if (can_id & flag) counter += 1`, SocketCANInterface.cpp:197–232. -/
def bump (can_id flag : BitVec 32) (counter : BitVec 64) : BitVec 64 :=
  if can_id &&& flag ≠ 0 then counter + 1 else counter

/-- The error counters, SocketCANInterface.cpp:197–232. -/
def countErrors (id : BitVec 32) (s : Statistics) : Statistics :=
  { s with
    err_tx_timeout := bump id CAN_ERR_TX_TIMEOUT s.err_tx_timeout                 -- 197–200
    err_lostarb := bump id CAN_ERR_LOSTARB s.err_lostarb                          -- 201–204
    err_crtl := bump id CAN_ERR_CRTL s.err_crtl                                   -- 205–208
    err_prot := bump id CAN_ERR_PROT s.err_prot                                   -- 209–212
    err_trx := bump id CAN_ERR_TRX s.err_trx                                      -- 213–216
    err_ack := bump id CAN_ERR_ACK s.err_ack                                      -- 217–220
    err_bussoff := bump id CAN_ERR_BUSOFF s.err_bussoff                           -- 221–224
    err_buserror := bump id CAN_ERR_BUSERROR s.err_buserror                       -- 225–228
    err_restarted := bump id CAN_ERR_RESTARTED s.err_restarted }                  -- 229–232

/-- State of the message loop of `read`: statistics, `out_frames`, `out_frames_read`. -/
structure ReadState where
  stats : Statistics
  out_frames : Vector FrameT FramesLen
  out_frames_read : Nat

/-- One pass of the message loop, SocketCANInterface.cpp:161–250. -/
def readOne (buf : CanfdFrame) (cmsgs : List Cmsg) (s : ReadState) : Outcome ReadState :=
  if h : s.out_frames_read < FramesLen then do                                    -- 163
    let (timestamp, stats) := readCmsgs TimePoint.default s.stats cmsgs           -- 164–193
    if buf.can_id &&& CAN_ERR_FLAG ≠ 0 then                                       -- 195
      return { s with stats := countErrors buf.can_id stats }
    else if buf.can_id &&& CAN_EFF_MASK ≠ 0 then do                               -- 234
      let tmp ← Frame.ofData buf.can_id (some buf.data.toList) buf.len.toNat timestamp   -- 236–239
      let f ← s.out_frames[s.out_frames_read].assign tmp                          -- 236
      return { stats := stats, out_frames := s.out_frames.set s.out_frames_read f,
               out_frames_read := s.out_frames_read + 1 }                         -- 240
    else return { s with stats := stats }                                         -- 247–250
  else .ub .outOfBounds

/-- The message loop of `read`, SocketCANInterface.cpp:159–251. -/
def readLoop (bufs : Vector CanfdFrame FramesLen) : List RxMsg → (i : Nat) → ReadState → Outcome ReadState
  | [], _, s => .ok s
  | m :: ms, i, s =>
    if h : i < FramesLen then do
      let s' ← readOne bufs[i] m.cmsgs s
      readLoop bufs ms (i + 1) s'
    else .ok s

/-- What `read` leaves behind: the result, `out_frames`, `out_frames_read` and the interface. -/
structure ReadOut where
  result : Result
  out_frames : Vector FrameT FramesLen
  read : Nat
  iface : Iface

/-- `read`, SocketCANInterface.cpp:141–254. -/
def Iface.read (s : Iface) (out_frames : Vector FrameT FramesLen) (ans : RecvAns) : Outcome ReadOut :=
  if ans.res ≤ 0 then                                                             -- 153–157
    .ok { result := if ans.res < 0 ∧ ans.errno = EAGAIN then .SuccessNothing else .UnknownInternalError,
          out_frames := out_frames, read := 0, iface := s }
  else do
    let msgs := ans.msgs.take ans.res.toNat
    let bufs := storeMsgs msgs 0 s.bufs                                           -- 151
    let r ← readLoop bufs msgs 0 { stats := s.stats, out_frames := out_frames, out_frames_read := 0 } -- 159–251
    let stats := { r.stats with
      rx_total := r.stats.rx_total + (BitVec.ofNat 32 r.out_frames_read).setWidth 64 } -- 252
    return { result := .Success, out_frames := r.out_frames, read := r.out_frames_read,
             iface := { s with stats := stats, bufs := bufs } }

/-! ## Histories -/

/-- A call on one interface with the kernel's answer. -/
inductive IfaceOp where
  | write (frames : Vector FrameT FramesLen) (frames_len : Nat) (ans : SysAns)
  | read (out_frames : Vector FrameT FramesLen) (ans : RecvAns)

/-- The interface after one call (`write` 96–139, `read` 141–254). -/
def Iface.step (s : Iface) : IfaceOp → Outcome Iface
  | .write f n a => do let r ← s.write f n a; return r.iface
  | .read o a => do let r ← s.read o a; return r.iface

/-- The interface after a sequence of calls. -/
def Iface.run (s : Iface) : List IfaceOp → Outcome Iface
  | [] => .ok s
  | op :: ops => do
    let s' ← s.step op
    s'.run ops

end Uavcan.SocketCan
