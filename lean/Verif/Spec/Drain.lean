import Verif.Spec.SocketSend

/-!
# Specification: reading from a socket while messages arrive

Linux: `net/socket.c` (`do_recvmmsg`) reports an error of the socket, if there is one, before it hands out messages, and forgets it;
`net/can/raw.c` (`raw_notify`) sets one when the network interface goes down or away. Nothing of this is in the repository.
-/

namespace Uavcan.Spec
open SocketCan Can

/-- The receive side of a socket: the messages that wait, oldest first, and an error not yet reported. -/
structure RxSock where
  queue : List RxMsg
  err : Option Int

/-- The kernel's answer to the call `read` makes, and the socket after it. -/
def RxSock.answer (r : RxSock) : Option (RecvAns × RxSock) :=
  match r.err with
  | some e => some ({ res := -1, errno := e, msgs := [] }, { r with err := none })
  | none => (recvmmsg (Nonblocking socketType) [] r.queue recvCall).map fun a => (a, { r with queue := r.queue.drop a.msgs.length })

/-- What happens at a socket. -/
inductive RxEv where
  /-- messages arrive -/
  | arrive (ms : List RxMsg)
  /-- the socket has an error (any but `EAGAIN`, 11, which is not an error of sockets) -/
  | fail (errno : Int) (h : errno ≠ 11)
  /-- the application calls `read` with this array -/
  | read (out : Vector FrameT FramesLen)

/-- A history at a socket that belongs to interface `s`; `outs` are the results of the calls of `read`, each with the frames that it
says it has read. -/
inductive Serves : RxSock → Iface → List RxEv → List (Result × List FrameT) → RxSock → Iface → Prop where
  | nil (r : RxSock) (s : Iface) : Serves r s [] [] r s
  | arrive {r r' : RxSock} {s s' : Iface} {ms : List RxMsg} {evs : List RxEv} {outs : List (Result × List FrameT)} :
      Serves { r with queue := r.queue ++ ms } s evs outs r' s' → Serves r s (.arrive ms :: evs) outs r' s'
  | fail {r r' : RxSock} {s s' : Iface} {e : Int} {h : e ≠ 11} {evs : List RxEv} {outs : List (Result × List FrameT)} :
      Serves { r with err := some e } s evs outs r' s' → Serves r s (.fail e h :: evs) outs r' s'
  | read {r r1 r' : RxSock} {s s' : Iface} {out : Vector FrameT FramesLen} {ans : RecvAns} {o : ReadOut} {evs : List RxEv}
      {outs : List (Result × List FrameT)} :
      r.answer = some (ans, r1) → s.read out ans = .ok o → Serves r1 o.iface evs outs r' s' →
      Serves r s (.read out :: evs) ((o.result, o.out_frames.toList.take o.read) :: outs) r' s'

/-- All messages that arrive. -/
def arrived : List RxEv → List RxMsg
  | [] => []
  | .arrive ms :: evs => ms ++ arrived evs
  | _ :: evs => arrived evs

/-- A frame stands for a message: its identifier, its length taken as data length code (which is right up to 8, see C40), its
payload. -/
def FromMsg (m : RxMsg) (f : FrameT) : Prop :=
  f.id = m.frame.can_id ∧ f.dlc = m.frame.len.toNat ∧
  ∀ k (h : k < 64), k < f.getDataLength → k < RxMsg.room m → f.data[k] = m.frame.data[k]

/-- The frames stand for the messages, one for each, in the same order. -/
def AllFrom (ms : List RxMsg) (fs : List FrameT) : Prop :=
  ms.length = fs.length ∧ ∀ (i : Nat) (m : RxMsg) (f : FrameT), ms[i]? = some m → fs[i]? = some f → FromMsg m f

end Uavcan.Spec
