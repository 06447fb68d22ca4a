import Verif.Model.SocketCtl
import Verif.Spec.SocketCan

/-!
# Specification: what the kernel does with control buffers

Linux, `net/core/scm.c` (`put_cmsg`), `net/socket.c` (`__sock_recv_cmsgs`, `____sys_recvmsg`) and `net/core/sock.c`
(`sock_cmsg_send`), x86-64. Nothing of this is in the repository.
-/

namespace Uavcan.Spec
open SocketCan Can

/-- `n` bytes, little endian. -/
def leBytes : (n : Nat) → Nat → List Byte
  | 0, _ => []
  | n + 1, x => BitVec.ofNat 8 x :: leBytes n (x / 256)

/-- The kernel's view of a control buffer while it fills it: `pos` bytes are used, `left` bytes are free. -/
structure KCtl where
  buf : Vector Byte ControlSize
  pos : Nat
  left : Nat

/-- Bytes stored in a buffer from `off` on. -/
def storeAt (v : Vector Byte ControlSize) (off : Nat) (bs : List Byte) : Vector Byte ControlSize :=
  Vector.ofFn fun k => if off ≤ k.val ∧ k.val < off + bs.length then bs.getD (k.val - off) 0 else v[k]

/-- `put_cmsg`: nothing if not even the header fits; what does not fit is cut off; the room used is rounded up to 8 bytes. -/
def putCmsg (level type : Nat) (data : List Byte) (k : KCtl) : KCtl :=
  if k.left < 16 then k
  else
    let cmlen := min (16 + data.length) k.left
    let bytes := leBytes 8 cmlen ++ leBytes 4 level ++ leBytes 4 type ++ data.take (cmlen - 16)
    let used := min (16 + (data.length + 7) / 8 * 8) k.left
    { buf := storeAt k.buf k.pos bytes, pos := k.pos + used, left := k.left - used }

/-- The options the kernel accepted for the socket. -/
structure SockOpts where
  /-- `SO_TIMESTAMP` -/
  ts : Bool
  /-- `SO_RXQ_OVFL` -/
  ovfl : Bool

/-- A message that arrives: the frame, the time of arrival, and the number of frames dropped so far. -/
structure Arrival where
  classic : Bool
  frame : CanfdFrame
  sec : BitVec 64
  usec : BitVec 64
  drops : BitVec 32

/-- Header and buffer after receiving a message: time stamp first (type 29), then the number of frames dropped (type 40),
if there were any; `msg_controllen` becomes the number of bytes used. -/
def ctlOf (o : SockOpts) (a : Arrival) (h : Hdr) : Hdr :=
  let k0 : KCtl := { buf := h.control, pos := 0, left := h.controllen }
  let k1 := if o.ts then putCmsg 1 29 (leBytes 8 a.sec.toNat ++ leBytes 8 a.usec.toNat) k0 else k0
  let k2 := if o.ovfl ∧ a.drops ≠ 0 then putCmsg 1 40 (leBytes 4 a.drops.toNat) k1 else k1
  { control := k2.buf, controllen := k2.pos }

/-- The messages `recvmmsg` leaves for those that arrived, each with its own header. -/
def rawMsgs (o : SockOpts) (hs : Vector Hdr FramesLen) (as : List Arrival) : List RawMsg :=
  List.zipWith (fun a h => ⟨a.classic, a.frame, ctlOf o a h⟩) as hs.toList

/-- A call on an interface and what happens in the kernel. -/
inductive KOp where
  /-- `write`, with the answer of `sendmmsg` -/
  | write (frames : Vector FrameT FramesLen) (frames_len : Nat) (ans : SysAns)
  /-- `read` while messages are waiting -/
  | arrive (out : Vector FrameT FramesLen) (as : List Arrival)
  /-- `read` which fails -/
  | fail (out : Vector FrameT FramesLen) (errno : Int)

/-- One to four messages; one to four frames. -/
def ValidKOp : KOp → Prop
  | .write _ n ans => n ≤ 4 ∧ ValidSend n ans
  | .arrive _ as => 0 < as.length ∧ as.length ≤ 4
  | .fail _ _ => True

/-- The answer of `recvmmsg` when messages are waiting. -/
def arriveAns (o : SockOpts) (s : CIface) (as : List Arrival) : RawAns :=
  { res := as.length, errno := 0, msgs := rawMsgs o s.hdrs as }

/-- The interface after a call. -/
def kstep (o : SockOpts) (s : CIface) : KOp → Outcome CIface
  | .write f n a => do let r ← s.write f n a; return r.iface
  | .arrive out as => do let r ← s.read out (arriveAns o s as); return r.iface
  | .fail out e => do let r ← s.read out { res := -1, errno := e, msgs := [] }; return r.iface

/-- The interface after a history of calls. -/
def krun (o : SockOpts) (s : CIface) : List KOp → Outcome CIface
  | [] => .ok s
  | op :: ops => do let s' ← kstep o s op; krun o s' ops

/-- The messages of one call. -/
def arrivals : KOp → List Arrival
  | .arrive _ as => as
  | _ => []

/-- The messages that arrived in place `j` of a batch, in order. -/
def slotArrivals (j : Nat) (ops : List KOp) : List Arrival := ops.filterMap fun op => (arrivals op)[j]?

/-- The number of frames the kernel dropped, as of the last message. -/
def droppedAsOf (ops : List KOp) : Nat := (((ops.flatMap arrivals).getLast?).map fun a => a.drops.toNat).getD 0

/-- The time of arrival in microseconds. -/
def Arrival.micros (a : Arrival) : Nat := a.sec.toNat * 1000000 + a.usec.toNat

/-- A plausible time of arrival. -/
def Arrival.Sane (a : Arrival) : Prop := a.sec.toNat < 2 ^ 43 ∧ a.usec.toNat < 1000000

/-- A message with its time of arrival, as `Model/SocketCan.lean` has it. -/
def Arrival.stamped (a : Arrival) : RxMsg := ⟨a.classic, a.frame, [.timestamp a.sec a.usec]⟩

/-- A call with the answer `Model/SocketCan.lean` takes, if every message comes with its time of arrival. -/
def KOp.stamped : KOp → IfaceOp
  | .write f n a => .write f n a
  | .arrive out as => .read out { res := as.length, errno := 0, msgs := as.map Arrival.stamped }
  | .fail out e => .read out { res := -1, errno := e, msgs := [] }

/-- Control data: one time stamp message (`cmsg_len` 32, `SOL_SOCKET`, `SO_TIMESTAMP`) with the time of a message. -/
def IsStampOf (a : Arrival) (bs : List Byte) : Prop :=
  bs.length = 32 ∧ leNat (bs.take 8) = 32 ∧ leNat ((bs.drop 8).take 4) = 1 ∧ leNat ((bs.drop 12).take 4) = 29 ∧
  leNat ((bs.drop 16).take 8) = a.sec.toNat ∧ leNat (bs.drop 24) = a.usec.toNat

/-- Control data refused by `sock_cmsg_send` because of its first header: too short, too long, or a time stamp or drop count
of a received message, which mean nothing on sending. -/
def Refused (bs : List Byte) : Prop :=
  16 ≤ bs.length ∧
  (leNat (bs.take 8) < 16 ∨ bs.length < leNat (bs.take 8) ∨
    (leNat ((bs.drop 8).take 4) = 1 ∧ (leNat ((bs.drop 12).take 4) = 29 ∨ leNat ((bs.drop 12).take 4) = 40)))

/-- The answer of `sendmmsg` of a kernel which checks control data: nothing is sent (`EINVAL` is 22) if the first message is
refused. -/
def Checks (control : List (List Byte)) (ans : SysAns) : Prop :=
  ∀ c cs, control = c :: cs → Refused c → ans = { res := -1, errno := 22 }

end Uavcan.Spec
