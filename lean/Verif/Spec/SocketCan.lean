import Verif.Model.SocketCan
import Verif.Spec.CanFd

/-!
# Specification of the SocketCAN interface

Facts about SocketCAN (Linux `Documentation/networking/can.rst`), stated bit by bit and independently of the
masks in the model: bit 31 of a `can_id` marks the extended format, bit 30 a remote frame, bit 29 an error
message, the lower 29 bits are the identifier (or the error classes).
-/

namespace Uavcan.Spec
open SocketCan

/-- An error message. -/
def IsErr (id : BitVec 32) : Bool := id.getLsbD 29

/-- A data frame in extended format. -/
def IsExtData (id : BitVec 32) : Bool := id.getLsbD 31 && !id.getLsbD 30 && !id.getLsbD 29

/-- What `read` really delivers (C39): anything that is not an error message and has a non-zero number in the low
29 bits. -/
def Delivers (id : BitVec 32) : Bool := !id.getLsbD 29 && canId29 id != 0

/-- The number of data bytes the kernel provides with a message. -/
def RxMsg.room (m : RxMsg) : Nat := if m.classic then 8 else 64

/-- What the kernel guarantees about the messages of one `recvmmsg` with room for four. -/
def ValidRecv (ans : RecvAns) : Prop := ans.res ≤ 4 ∧ (0 < ans.res → (ans.msgs.length : Int) = ans.res)

/-- What the kernel guarantees about `sendmmsg` of `n` messages: -1, or a number of messages from 1 to `n`. -/
def ValidSend (n : Nat) (ans : SysAns) : Prop := ans.res = -1 ∨ (1 ≤ ans.res ∧ ans.res ≤ n)

/-- The number of frames the kernel queued. -/
def queued (ans : SysAns) : Nat := if 0 < ans.res then ans.res.toNat else 0

/-- What the kernel guarantees about the length of one received frame. -/
def ValidLen (m : RxMsg) : Prop := FdLength m.frame.len.toNat ∧ (m.classic = true → m.frame.len.toNat ≤ 8)

/-- The timestamp the kernel attached, in microseconds (the last one, if there are several; 0 if there is none). -/
def stampOf (cs : List Cmsg) : Nat :=
  cs.foldl (fun t c => match c with
    | .timestamp sec usec => sec.toNat * 1000000 + usec.toNat
    | _ => t) 0

/-- A frame (of the library) carries the message (of the kernel): identifier, payload length, payload, timestamp. -/
def Carries (m : RxMsg) (f : FrameT) : Prop :=
  canId29 f.id = canId29 m.frame.can_id ∧
  f.getDataLength = m.frame.len.toNat ∧
  (∀ k (h : k < 64), k < m.frame.len.toNat → f.data[k] = m.frame.data[k]) ∧
  f.timestamp.toMicrosecond = stampOf m.cmsgs

/-- The error classes and the statistics that stand for them. -/
inductive ErrClass where
  | txTimeout | lostArb | crtl | prot | trx | ack | busOff | busError | restarted
  deriving DecidableEq, Repr

/-- Bit of the error class in the `can_id` of an error message (`include/uapi/linux/can/error.h`). -/
def ErrClass.bitNo : ErrClass → Nat
  | txTimeout => 0 | lostArb => 1 | crtl => 2 | prot => 3 | trx => 4 | ack => 5 | busOff => 6 | busError => 7
  | restarted => 8

/-- The statistic named after the class. -/
def ErrClass.stat (s : Statistics) : ErrClass → BitVec 64
  | txTimeout => s.err_tx_timeout | lostArb => s.err_lostarb | crtl => s.err_crtl | prot => s.err_prot
  | trx => s.err_trx | ack => s.err_ack | busOff => s.err_bussoff | busError => s.err_buserror
  | restarted => s.err_restarted

/-- A message reports an error of a class. -/
def Reports (c : ErrClass) (m : RxMsg) : Bool := IsErr m.frame.can_id && m.frame.can_id.getLsbD c.bitNo

/-- The drop counts in the control messages of one message. -/
def dropsOf (cs : List Cmsg) : List (BitVec 32) :=
  cs.filterMap fun | .rxqOvfl d => some d | _ => none

/-- The messages received in one call. -/
def opMsgs : IfaceOp → List RxMsg
  | .write _ _ _ => []
  | .read _ ans => if ans.res ≤ 0 then [] else ans.msgs.take ans.res.toNat

/-- The messages received in a history of calls. -/
def received (ops : List IfaceOp) : List RxMsg := ops.flatMap opMsgs

/-- The kernel's answers in a history are valid, and the arguments are within the array. -/
def ValidOp : IfaceOp → Prop
  | .write _ n ans => n ≤ 4 ∧ ValidSend n ans
  | .read _ ans => ValidRecv ans

/-- The kernel counts dropped frames cumulatively: the number dropped so far is the last number reported. -/
def droppedSoFar (ms : List RxMsg) : Nat :=
  ((ms.flatMap fun m => dropsOf m.cmsgs).getLast?.map BitVec.toNat).getD 0

end Uavcan.Spec
