import Verif.Model.SocketCan

/-!
# Model of the SocketCAN example: the message headers and control buffers

`test/linux/example/media_on_linux/SocketCANInterface.{hpp,cpp}`, the part `Model/SocketCan.lean` leaves out: the members
`trx_control_` and `trx_msghdrs_` (SocketCANInterface.hpp:67–68), which `read` and `write` share, byte by byte. There the
control messages are part of the kernel's answer; here the answer is what the kernel leaves in the header and the buffer,
and the `CMSG` loop (SocketCANInterface.cpp:166–193) reads it.

`CMSG_FIRSTHDR`, `CMSG_NXTHDR` and `CMSG_DATA` are those of glibc on x86-64 (little endian, `size_t` of 8 bytes), without
overflow of pointers. Reading outside a control buffer is undefined behaviour.
-/

namespace Uavcan.SocketCan
open Can Time

/-- `sizeof(cmsghdr)` on x86-64, used at SocketCANInterface.hpp:55. -/
def CmsghdrSize : Nat := 16
/-- `sizeof(::timeval)` on x86-64, used at SocketCANInterface.hpp:55 and SocketCANInterface.cpp:170. -/
def TimevalSize : Nat := 16
/-- `ControlSize`, SocketCANInterface.hpp:55. -/
abbrev ControlSize : Nat := CmsghdrSize + TimevalSize

/-- `SOL_SOCKET` of Linux, used at SocketCANInterface.cpp:168. -/
def SOL_SOCKET : Nat := 1
/-- `SO_TIMESTAMP` of Linux, used at SocketCANInterface.cpp:170. -/
def SO_TIMESTAMP : Nat := 29
/-- `SO_RXQ_OVFL` of Linux, used at SocketCANInterface.cpp:177. -/
def SO_RXQ_OVFL : Nat := 40

/-- One element of `trx_msghdrs_` with its element of `trx_control_`, SocketCANInterface.hpp:67–68: the buffer and
`msg_controllen`. The other members of the header never change. -/
structure Hdr where
  control : Vector Byte ControlSize
  controllen : Nat
  deriving DecidableEq

/-- The interface with its headers, SocketCANInterface.hpp:61–68. -/
structure CIface where
  iface : Iface
  hdrs : Vector Hdr FramesLen

/-- The constructor, SocketCANInterface.cpp:47–68: `msg_controllen` is `ControlSize`; `trx_control_` is not in the list, so
the buffers hold whatever the memory held (`junk`). -/
def CIface.mk' (index : Nat) (name : String) (fd : Int) (junk : Vector (Vector Byte ControlSize) FramesLen) : CIface :=
  { iface := Iface.mk' index name fd, hdrs := junk.map fun b => ⟨b, ControlSize⟩ }

/-- Number stored little endian (x86-64); for the loads at SocketCANInterface.cpp:168–179. -/
def leNat : List Byte → Nat
  | [] => 0
  | b :: bs => b.toNat + 256 * leNat bs

/-- Load of `n` bytes at `off` of a control buffer; for the loads at SocketCANInterface.cpp:168–179. -/
def Hdr.load (h : Hdr) (off n : Nat) : Outcome Nat :=
  if off + n ≤ ControlSize then .ok (leNat ((h.control.toList.drop off).take n)) else .ub .outOfBounds

/-- `CMSG_ALIGN` of glibc (to `sizeof(size_t)`); part of `CMSG_NXTHDR` at SocketCANInterface.cpp:166. -/
def cmsgAlign (len : Nat) : Nat := (len + 7) / 8 * 8

/-- `CMSG_NXTHDR` of glibc at SocketCANInterface.cpp:166, for the header at `off` with `cmsg_len = len`. -/
def nextHdr (controllen off len : Nat) : Option Nat :=
  if len < CmsghdrSize then none
  else if controllen < off + CmsghdrSize + cmsgAlign len then none
  else some (off + cmsgAlign len)

theorem nextHdr_lt {c off len off' : Nat} (h : nextHdr c off len = some off') : c - off' < c - off := by
  unfold nextHdr at h
  split at h
  · cases h
  · split at h
    · cases h
    · cases h
      simp only [CmsghdrSize, cmsgAlign] at *
      omega

/-- The body of the control message loop for the header at `off`, SocketCANInterface.cpp:168–192: the new timestamp and
statistics, and `cmsg_len`. -/
def ctlOne (h : Hdr) (off : Nat) (t : TimePoint) (st : Statistics) : Outcome (TimePoint × Statistics × Nat) := do
  let len ← h.load off 8
  let level ← h.load (off + 8) 4
  let type ← h.load (off + 12) 4
  if level = SOL_SOCKET then                                                      -- 168
    if type = SO_TIMESTAMP ∧ TimevalSize ≤ h.controllen then do                   -- 170
      let sec ← h.load (off + CmsghdrSize) 8                                      -- 172–173
      let usec ← h.load (off + CmsghdrSize + 8) 8
      let us := BitVec.ofNat 64 sec * 1000000#64 + BitVec.ofNat 64 usec           -- 175
      return (TimePoint.fromMicrosecond (us.toNat : Int), st, len)                -- 174
    else if type = SO_RXQ_OVFL ∧ 4 ≤ len then do                                  -- 177
      let drops ← h.load (off + CmsghdrSize) 4
      return (t, { st with rx_dropped := st.rx_dropped + BitVec.ofNat 64 drops }, len) -- 179
    else return (t, st, len)                                                      -- 181–187
  else return (t, st, len)                                                        -- 189–192

/-- The control message loop from the header at `off` on, SocketCANInterface.cpp:166–193. -/
def ctlLoop (h : Hdr) (off : Nat) (t : TimePoint) (st : Statistics) : Outcome (TimePoint × Statistics) :=
  match ctlOne h off t st with
  | .ub u => .ub u
  | .ok (t', st', len) =>
    match hn : nextHdr h.controllen off len with
    | none => .ok (t', st')
    | some off' => ctlLoop h off' t' st'
  termination_by h.controllen - off
  decreasing_by exact nextHdr_lt hn

/-- The control message loop, SocketCANInterface.cpp:164–193; `CMSG_FIRSTHDR` gives a header if there is room for one. -/
def readCtl (h : Hdr) (st : Statistics) : Outcome (TimePoint × Statistics) :=
  if CmsghdrSize ≤ h.controllen then ctlLoop h 0 TimePoint.default st else .ok (TimePoint.default, st)

/-- One message as the kernel leaves it: the frame (see `RxMsg`), and the header with the control buffer. Answer of
`recvmmsg` at SocketCANInterface.cpp:151. -/
structure RawMsg where
  classic : Bool
  frame : CanfdFrame
  hdr : Hdr

/-- Answer of `recvmmsg` at SocketCANInterface.cpp:151. -/
structure RawAns where
  res : Int
  errno : Int
  msgs : List RawMsg

/-- The headers after `recvmmsg` at SocketCANInterface.cpp:151: those of the messages received are replaced. -/
def storeHdrs : List RawMsg → (i : Nat) → Vector Hdr FramesLen → Vector Hdr FramesLen
  | [], _, hs => hs
  | m :: ms, i, hs => if h : i < FramesLen then storeHdrs ms (i + 1) (hs.set i m.hdr) else hs

/-- One pass of the message loop of `read`, SocketCANInterface.cpp:161–250. -/
def readOneRaw (buf : CanfdFrame) (h : Hdr) (s : ReadState) : Outcome ReadState :=
  if hr : s.out_frames_read < FramesLen then do                                   -- 163
    let (timestamp, stats) ← readCtl h s.stats                                    -- 164–193
    if buf.can_id &&& CAN_ERR_FLAG ≠ 0 then                                       -- 195
      return { s with stats := countErrors buf.can_id stats }
    else if buf.can_id &&& CAN_EFF_MASK ≠ 0 then do                               -- 234
      let tmp ← Frame.ofData buf.can_id (some buf.data.toList) buf.len.toNat timestamp   -- 236–239
      let f ← s.out_frames[s.out_frames_read].assign tmp                          -- 236
      return { stats := stats, out_frames := s.out_frames.set s.out_frames_read f,
               out_frames_read := s.out_frames_read + 1 }                         -- 240
    else return { s with stats := stats }                                         -- 247–250
  else .ub .outOfBounds

/-- The message loop of `read`, SocketCANInterface.cpp:159–251, for the remaining `n` messages from `i` on. -/
def readLoopRaw (bufs : Vector CanfdFrame FramesLen) (hs : Vector Hdr FramesLen) :
    (n i : Nat) → ReadState → Outcome ReadState
  | 0, _, s => .ok s
  | n + 1, i, s =>
    if h : i < FramesLen then do
      let s' ← readOneRaw bufs[i] hs[i] s
      readLoopRaw bufs hs n (i + 1) s'
    else .ok s

/-- What `read` leaves behind, SocketCANInterface.cpp:141–254. -/
structure RawReadOut where
  result : Result
  out_frames : Vector FrameT FramesLen
  read : Nat
  iface : CIface

/-- `read`, SocketCANInterface.cpp:141–254. -/
def CIface.read (s : CIface) (out_frames : Vector FrameT FramesLen) (ans : RawAns) : Outcome RawReadOut :=
  if ans.res ≤ 0 then                                                             -- 153–157
    .ok { result := if ans.res < 0 ∧ ans.errno = EAGAIN then .SuccessNothing else .UnknownInternalError,
          out_frames := out_frames, read := 0, iface := s }
  else do
    let msgs := ans.msgs.take ans.res.toNat
    let bufs := storeMsgs (msgs.map fun m => ⟨m.classic, m.frame, []⟩) 0 s.iface.bufs   -- 151
    let hdrs := storeHdrs msgs 0 s.hdrs                                           -- 151
    let r ← readLoopRaw bufs hdrs msgs.length 0
      { stats := s.iface.stats, out_frames := out_frames, out_frames_read := 0 }  -- 159–251
    let stats := { r.stats with
      rx_total := r.stats.rx_total + (BitVec.ofNat 32 r.out_frames_read).setWidth 64 } -- 252
    return { result := .Success, out_frames := r.out_frames, read := r.out_frames_read,
             iface := { iface := { s.iface with stats := stats, bufs := bufs }, hdrs := hdrs } }

/-- What `write` leaves behind, SocketCANInterface.cpp:96–139; `control` is the control data in the headers given to
`sendmmsg` (120), message by message. -/
structure RawWriteOut where
  out : WriteOut
  control : List (List Byte)
  iface : CIface

/-- The control data a header hands to the kernel: `msg_controllen` bytes at `msg_control`, SocketCANInterface.cpp:57–60. -/
def Hdr.data (h : Hdr) : List Byte := h.control.toList.take h.controllen

/-- `write`, SocketCANInterface.cpp:96–139: `sendmmsg` (120) gets the headers as they are, and does not change them. -/
def CIface.write (s : CIface) (frames : Vector FrameT FramesLen) (frames_len : Nat) (ans : SysAns) :
    Outcome RawWriteOut := do
  let r ← s.iface.write frames frames_len ans
  return { out := r, control := if frames_len = 0 then [] else (s.hdrs.toList.take frames_len).map Hdr.data,
           iface := { s with iface := r.iface } }

end Uavcan.SocketCan
