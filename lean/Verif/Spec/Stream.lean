import Verif.Spec.Drain

/-!
# Specification: a stream of frames from one application to another

One application sends frames one after the other through its interface: it calls `write` with up to four of those not yet sent, and
leaves out as many of them as `write` says it has written. Another reads from its own interface. Between the two are the kernel and a
bus. Neither application is in the repository; they stand for every use of `write` and `read` of this kind.
-/

namespace Uavcan.Spec
open SocketCan Can

/-- `P` holds for the two lists, element by element. -/
def Paired {α β : Type} (P : α → β → Prop) (as : List α) (bs : List β) : Prop :=
  as.length = bs.length ∧ ∀ (i : Nat) (a : α) (b : β), as[i]? = some a → bs[i]? = some b → P a b

/-- Two frames are the same: identifier, data length code, payload. -/
def Same (f g : FrameT) : Prop :=
  canId29 f.id = canId29 g.id ∧ f.dlc = g.dlc ∧ ∀ k (h : k < 64), k < f.getDataLength → f.data[k] = g.data[k]

/-- A virtual bus (`vcan`) hands over what the kernel was given. -/
def OnVcan (f : CanfdFrame) (m : RxMsg) : Prop := m.classic = false ∧ m.frame = f

/-- A CAN FD bus (ISO 11898-1, and `can_fd_len2dlc` of Linux): the identifier with its flags, the length rounded up to one that a
CAN FD frame can have, and the data. Nothing is known about what fills up the frame and what comes behind it. -/
def OnBus (f : CanfdFrame) (m : RxMsg) : Prop :=
  m.classic = false ∧ m.frame.can_id = f.can_id ∧ IsLeastAtLeast FdLength f.len.toNat m.frame.len.toNat ∧
  ∀ k (h : k < 64), k < f.len.toNat → m.frame.data[k] = f.data[k]

/-- The sender's interface and the frames it has not sent yet; the receiver's socket and interface and the frames it has got. -/
structure Stream where
  tx : Iface
  pending : List FrameT
  sock : RxSock
  rx : Iface
  got : List FrameT

/-- One step. -/
inductive Stream.Step (bus : CanfdFrame → RxMsg → Prop) : Stream → Stream → Prop where
  /-- The sender calls `write` with an array whose first elements are the next frames; the kernel takes some of them. -/
  | write {c : Stream} (arr : Vector FrameT FramesLen) (ans : SysAns) (o : WriteOut) (ms : List RxMsg) :
      c.pending ≠ [] → (∀ i, i < 4 → i < c.pending.length → arr[i]? = c.pending[i]?) →
      ValidSend (min 4 c.pending.length) ans → c.tx.write arr (min 4 c.pending.length) ans = .ok o →
      Paired bus (o.submitted.take (queued ans)) ms →
      Step bus c { c with tx := o.iface, pending := c.pending.drop o.written, sock := { c.sock with queue := c.sock.queue ++ ms } }
  /-- The receiver's socket has an error. -/
  | fail {c : Stream} (e : Int) : e ≠ 11 → Step bus c { c with sock := { c.sock with err := some e } }
  /-- The receiver calls `read`. -/
  | read {c : Stream} (out : Vector FrameT FramesLen) (ans : RecvAns) (sock : RxSock) (o : ReadOut) :
      c.sock.answer = some (ans, sock) → c.rx.read out ans = .ok o →
      Step bus c { c with sock := sock, rx := o.iface, got := c.got ++ o.out_frames.toList.take o.read }

/-- Any number of steps. -/
inductive Stream.Reaches (bus : CanfdFrame → RxMsg → Prop) : Stream → Stream → Prop where
  | refl (c : Stream) : Reaches bus c c
  | snoc {a b c : Stream} : Reaches bus a b → Stream.Step bus b c → Reaches bus a c

/-- Nothing has been sent yet. -/
def Stream.start (tx rx : Iface) (fs : List FrameT) : Stream := ⟨tx, fs, ⟨[], none⟩, rx, []⟩

end Uavcan.Spec
