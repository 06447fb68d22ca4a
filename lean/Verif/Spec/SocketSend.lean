import Verif.Model.SocketCalls
import Verif.Spec.SocketCan

/-!
# Specification: when the kernel takes and hands out messages, and when it lets the caller wait

Linux: `net/socket.c` (`__sys_sendmmsg`, `do_recvmmsg`), `net/can/raw.c` (`raw_sendmsg`, `raw_recvmsg`), `net/core/sock.c`
(`sock_alloc_send_pskb`), `net/can/af_can.c` (`can_send`). Nothing of this is in the repository.
-/

namespace Uavcan.Spec
open SocketCan

/-- A socket made with this type does not block: bit 11, `SOCK_NONBLOCK`. -/
def Nonblocking (type : BitVec 32) : Bool := type.getLsbD 11

/-- The arguments of `socket` ask for a raw CAN socket, without further flags: family 29, kind (the low four bits of the type) 3,
no flags in the others, and protocol 1. -/
def AsksForRawCan (a : BitVec 32 × BitVec 32 × BitVec 32) : Prop :=
  a.1.toNat = 29 ∧ a.2.1.toNat % 16 = 3 ∧ a.2.1.toNat / 16 = 0 ∧ a.2.2.toNat = 1

/-- A call with these flags does not block: bit 6, `MSG_DONTWAIT`. -/
def DontWait (flags : BitVec 32) : Bool := flags.getLsbD 6

/-- The transmit side of a bound CAN socket. -/
structure Tx where
  /-- the socket does not block -/
  nonblock : Bool
  /-- `CAN_RAW_FD_FRAMES` is on -/
  fdFrames : Bool
  /-- MTU of the network interface: 16 for CAN 2.0, 72 for CAN FD -/
  mtu : Nat
  /-- number of messages the send buffer of the socket still takes -/
  room : Nat
  /-- number of messages the transmit queue of the network interface still takes -/
  queue : Nat

/-- What happens to one message. -/
inductive SendOne where
  | taken
  | refused (errno : Int)
  | sleeps

/-- A message of 16 bytes is a CAN 2.0 frame, one of 72 bytes a CAN FD frame, which both socket and network interface must
support; anything else is refused (`EINVAL`, 22). With a full send buffer the caller waits, or is told to try again
(`EAGAIN`, 11). With a full transmit queue the message is lost (`ENOBUFS`, 105). -/
def sendOne (dontwait : Bool) (tx : Tx) (bytes : Nat) : SendOne :=
  if ¬ (bytes = 16 ∨ (bytes = 72 ∧ tx.fdFrames = true ∧ tx.mtu = 72)) then .refused 22
  else if tx.room = 0 then (if tx.nonblock || dontwait then .refused 11 else .sleeps)
  else if tx.queue = 0 then .refused 105
  else .taken

/-- `sendmmsg` for messages of these sizes, `done` of them taken before. Whenever the caller waits, the network interface
sends the next number of frames in `wakes`; `none` if the caller still waits after the last one. The answer is the number
of messages taken, or an error if it is 0. -/
def sendAll (dontwait : Bool) (wakes : List Nat) (tx : Tx) (sizes : List Nat) (done : Nat) : Option SysAns :=
  match sizes with
  | [] => some { res := done, errno := 0 }
  | b :: bs =>
    match sendOne dontwait tx b with
    | .taken => sendAll dontwait wakes { tx with room := tx.room - 1, queue := tx.queue - 1 } bs (done + 1)
    | .refused e => some (if done = 0 then { res := -1, errno := e } else { res := done, errno := 0 })
    | .sleeps =>
      match wakes with
      | [] => none
      | w :: ws => sendAll dontwait ws { tx with room := tx.room + w, queue := tx.queue + w } (b :: bs) done
  termination_by (wakes.length, sizes.length)

/-- The answer to a call of `sendmmsg`. -/
def sendmmsg (wakes : List Nat) (tx : Tx) (c : SendCall) : Option SysAns :=
  sendAll (DontWait c.flags) wakes tx (c.msgs.map (·.1)) 0

/-- `recvmmsg` with room for `vlen` messages, `got` of them received before. Whenever the caller waits, the next list in `wakes`
arrives; `none` if the caller still waits after the last one. -/
def recvAll (dontwait nonblock : Bool) (wakes : List (List RxMsg)) (queue : List RxMsg) (vlen : Nat) (got : List RxMsg) :
    Option RecvAns :=
  match vlen with
  | 0 => some { res := got.length, errno := 0, msgs := got }
  | n + 1 =>
    match queue with
    | m :: ms => recvAll dontwait nonblock wakes ms n (got ++ [m])
    | [] =>
      if dontwait || nonblock then
        some (if got = [] then { res := -1, errno := 11, msgs := [] } else { res := got.length, errno := 0, msgs := got })
      else match wakes with
        | [] => none
        | w :: ws => recvAll dontwait nonblock ws w (n + 1) got
  termination_by (wakes.length, vlen)

/-- The answer to a call of `recvmmsg`. -/
def recvmmsg (nonblock : Bool) (wakes : List (List RxMsg)) (queue : List RxMsg) (c : RecvCall) : Option RecvAns :=
  recvAll (DontWait c.flags) nonblock wakes queue c.vlen []

end Uavcan.Spec
