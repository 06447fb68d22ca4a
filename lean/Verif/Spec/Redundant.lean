import Verif.Spec.SocketSend
import Verif.Spec.EventLoop

/-!
# Specification: writing to a group of interfaces

The transmit sides of all sockets (`Spec/SocketSend`), with what is left of them after a call. Each network interface is used by one
socket only. When a socket has room: `sock_writeable` of Linux' `include/net/sock.h`. Nothing of this is in the repository.
-/

namespace Uavcan.Spec
open SocketCan Can

/-- `sendAll` with the socket as the call leaves it. -/
def sendAllTx (dontwait : Bool) (wakes : List Nat) (tx : Tx) (sizes : List Nat) (done : Nat) : Option (SysAns × Tx) :=
  match sizes with
  | [] => some ({ res := done, errno := 0 }, tx)
  | b :: bs =>
    match sendOne dontwait tx b with
    | .taken => sendAllTx dontwait wakes { tx with room := tx.room - 1, queue := tx.queue - 1 } bs (done + 1)
    | .refused e => some (if done = 0 then { res := -1, errno := e } else { res := done, errno := 0 }, tx)
    | .sleeps =>
      match wakes with
      | [] => none
      | w :: ws => sendAllTx dontwait ws { tx with room := tx.room + w, queue := tx.queue + w } (b :: bs) done
  termination_by (wakes.length, sizes.length)

/-- The transmit sides of all sockets, by descriptor. -/
abbrev TxNet := Int → Tx

/-- One socket changes. -/
def TxNet.set (net : TxNet) (fd : Int) (tx : Tx) : TxNet := fun x => if x = fd then tx else net x

/-- Frames leave. -/
def Tx.leave (tx : Tx) (n : Nat) : Tx := { tx with room := tx.room + n, queue := tx.queue + n }

/-- What happens around a group that sends. -/
inductive TxEv where
  /-- frames leave a network interface -/
  | leave (fd : Int) (n : Nat)
  /-- a call of `write` for an interface; if it waits, these numbers of frames leave the network interface one after the other -/
  | write (k : Nat) (frames : Vector FrameT FramesLen) (n : Nat) (wakes : List Nat)

/-- What the application sees of a call of `write`: the interface, the result and the number of frames written. -/
structure TxOut where
  k : Nat
  result : Result
  written : Nat
  deriving DecidableEq

/-- One event. `none`: the call still waits when the last of the numbers given has left. -/
def txStep (net : TxNet) (g : Group) : TxEv → Outcome (Option (List TxOut × TxNet × Group))
  | .leave fd n => .ok (some ([], net.set fd ((net fd).leave n), g))
  | .write k frames n wakes =>
    match g.interfaces[k]? with
    | none => do
      let o ← g.write k frames n 0 ⟨0, 0⟩
      return some ([⟨k, o.result, o.written⟩], net, o.group)
    | some i => do
      match ← i.sendCall frames n with
      | none =>
        let o ← g.write k frames n 0 ⟨0, 0⟩
        return some ([⟨k, o.result, o.written⟩], net, o.group)
      | some c =>
        match sendAllTx (DontWait c.flags) wakes (net i.fd) (c.msgs.map (·.1)) 0 with
        | none => return none
        | some (ans, tx) =>
          let o ← g.write k frames n 0 ans
          return some ([⟨k, o.result, o.written⟩], net.set i.fd tx, o.group)

/-- A history. `none`: it stops in a call that does not return. -/
def txRun (net : TxNet) (g : Group) : List TxEv → Outcome (Option (List TxOut × TxNet × Group))
  | [] => .ok (some ([], net, g))
  | ev :: evs => do
    match ← txStep net g ev with
    | none => return none
    | some (os, net', g') =>
      match ← txRun net' g' evs with
      | none => return none
      | some (os', net'', g'') => return some (os ++ os', net'', g'')

/-- The events of one interface. -/
def TxEv.isOf (k : Nat) (fd : Int) : TxEv → Bool
  | .leave x _ => x == fd
  | .write j _ _ _ => j == k

/-- The number of frames given to the calls of `write` for an interface. -/
def framesFor (k : Nat) : List TxEv → Nat
  | [] => 0
  | .write j _ n _ :: evs => (if j = k then n else 0) + framesFor k evs
  | .leave _ _ :: evs => framesFor k evs

/-- No frame leaves the network interface: nobody acknowledges frames on the bus, or the cable is broken. -/
def Dead (k : Nat) (fd : Int) (evs : List TxEv) : Prop :=
  ∀ ev ∈ evs, ev.isOf k fd = true → match ev with | .leave _ n => n = 0 | .write _ _ _ wakes => wakes.sum = 0

/-- Whenever a call for the interface waits, enough frames leave. -/
def Live (k : Nat) (evs : List TxEv) : Prop :=
  ∀ ev ∈ evs, match ev with | .leave _ _ => True | .write j _ n wakes => j = k → n ≤ wakes.sum

/-- The arrays given to `write` hold four frames. -/
def ArraysOk (evs : List TxEv) : Prop :=
  ∀ ev ∈ evs, match ev with | .leave _ _ => True | .write _ _ n _ => n ≤ 4

/-- A socket as the example makes it, for a network interface that supports CAN FD. -/
def Tx.Usual (tx : Tx) : Prop := tx.nonblock = Nonblocking socketType ∧ tx.fdFrames = true ∧ tx.mtu = 72

/-- `ppoll` reports `POLLOUT` for a socket whose send buffer takes `cap` messages: less than half of it is used. -/
def hasRoom (cap : Nat) (tx : Tx) : Bool := decide (2 * (cap - tx.room) < cap)

/-- The histories of an application with one interface that writes one frame at a time, and only when the socket has room, as `select` says. At the beginning the
send buffer takes `cap` messages and the transmit queue `qlen`; no more frames leave than were written. -/
inductive Waits (cap qlen : Nat) (fd : Int) : TxNet → Group → Prop where
  | start {net : TxNet} {i : Iface} : net fd = ⟨Nonblocking socketType, true, 72, cap, qlen⟩ → i.fd = fd → Waits cap qlen fd net ⟨[i]⟩
  | leave {net : TxNet} {g : Group} {n : Nat} : Waits cap qlen fd net g → n ≤ cap - (net fd).room →
      Waits cap qlen fd (net.set fd ((net fd).leave n)) g
  | write {net net' : TxNet} {g g' : Group} {frames : Vector FrameT FramesLen} {outs : List TxOut} : Waits cap qlen fd net g →
      hasRoom cap (net fd) = true → txStep net g (.write 0 frames 1 []) = .ok (some (outs, net', g')) → Waits cap qlen fd net' g'

end Uavcan.Spec
