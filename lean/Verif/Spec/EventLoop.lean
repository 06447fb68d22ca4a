import Verif.Spec.Drain
import Verif.Model.SocketGroup
import Verif.Spec.Clamp

/-!
# Specification: waiting for and reading from a group of interfaces

How Linux answers `ppoll` on raw CAN sockets: `net/core/datagram.c` (`datagram_poll`) reports `POLLIN` while a message waits,
`POLLERR` while an error is not yet reported and `POLLOUT` while there is room to send; `fs/select.c` (`do_poll`) returns as soon as
a descriptor has something to report and otherwise when the time is over or a signal arrives. Nothing of this is in the repository.
-/

namespace Uavcan.Spec
open SocketCan Can

/-- The receive sides of all sockets, by descriptor. -/
abbrev Net := Int → RxSock

/-- One socket changes. -/
def Net.set (net : Net) (fd : Int) (r : RxSock) : Net := fun x => if x = fd then r else net x

/-- What is reported for one entry of the array given to `ppoll`; `wr` says which sockets have room to send. Errors are reported
whether asked for or not; entries with a negative descriptor are ignored. -/
def reported (net : Net) (wr : Int → Bool) (p : Int × BitVec 16) : BitVec 16 :=
  if p.1 < 0 then 0
  else (if (net p.1).queue = [] then 0 else p.2 &&& POLLIN) ||| (if wr p.1 then p.2 &&& POLLOUT else 0) |||
    (if (net p.1).err = none then 0 else POLLERR)

/-- The answer of `ppoll` at the moment when it returns: the number of entries with something to report or, if there is none, -1 after
a signal and 0 when the time is over. -/
def pollAnswer (net : Net) (wr : Int → Bool) (signal : Bool) (fds : List (Int × BitVec 16)) : PollAns :=
  let ev := fds.map (reported net wr)
  let n := (ev.filter (· ≠ 0)).length
  { res := if n ≠ 0 then n else if signal then -1 else 0, revents := ev }

/-- What happens around a group. -/
inductive GroupEv where
  /-- messages arrive at a socket -/
  | arrive (fd : Int) (ms : List RxMsg)
  /-- a socket has an error -/
  | fail (fd : Int) (errno : Int) (h : errno ≠ 11)
  /-- a call of `select` with this timeout returns -/
  | select (usec : Int) (ig : Bool) (wr : Int → Bool) (signal : Bool)
  /-- a call of `read` for an interface with this array and counter -/
  | read (k : Nat) (out : Vector FrameT FramesLen) (old : Nat)

/-- What the application sees: results and, for `read`, the frames delivered. -/
inductive GroupOut where
  | select (r : Result)
  | read (k : Nat) (r : Result) (fs : List FrameT)

/-- A history around a group. A call of `read` for an interface that does not exist makes no system call and delivers nothing. -/
inductive Loops : Net → Group → List GroupEv → List GroupOut → Net → Group → Prop where
  | nil (net : Net) (g : Group) : Loops net g [] [] net g
  | arrive {net net' : Net} {g g' : Group} {fd : Int} {ms : List RxMsg} {evs : List GroupEv} {outs : List GroupOut} :
      Loops (net.set fd { net fd with queue := (net fd).queue ++ ms }) g evs outs net' g' →
      Loops net g (.arrive fd ms :: evs) outs net' g'
  | fail {net net' : Net} {g g' : Group} {fd e : Int} {h : e ≠ 11} {evs : List GroupEv} {outs : List GroupOut} :
      Loops (net.set fd { net fd with err := some e }) g evs outs net' g' → Loops net g (.fail fd e h :: evs) outs net' g'
  | select {net net' : Net} {g g' : Group} {usec : Int} {ig : Bool} {wr : Int → Bool} {signal : Bool} {ans : PollAns} {r : Result}
      {req : PollReq} {evs : List GroupEv} {outs : List GroupOut} :
      g.select strictAbs ⟨usec⟩ ig ans = .ok (r, req) → ans = pollAnswer net wr signal req.fds → Loops net g evs outs net' g' →
      Loops net g (.select usec ig wr signal :: evs) (.select r :: outs) net' g'
  | read {net net' : Net} {g g' : Group} {k : Nat} {out : Vector FrameT FramesLen} {old : Nat} {i : Iface} {ans : RecvAns}
      {r1 : RxSock} {o : Group.ReadOut} {evs : List GroupEv} {outs : List GroupOut} :
      g.interfaces[k]? = some i → (net i.fd).answer = some (ans, r1) → g.read k out old ans = .ok o →
      Loops (net.set i.fd r1) o.group evs outs net' g' →
      Loops net g (.read k out old :: evs) (.read k o.result (o.out_frames.toList.take o.read) :: outs) net' g'
  | readBad {net net' : Net} {g g' : Group} {k : Nat} {out : Vector FrameT FramesLen} {old : Nat} {ans : RecvAns}
      {o : Group.ReadOut} {evs : List GroupEv} {outs : List GroupOut} :
      g.interfaces[k]? = none → g.read k out old ans = .ok o → Loops net o.group evs outs net' g' →
      Loops net g (.read k out old :: evs) (.read k o.result [] :: outs) net' g'

/-- The messages that arrive at a socket. -/
def arrivedAt (fd : Int) : List GroupEv → List RxMsg
  | [] => []
  | .arrive x ms :: evs => (if x = fd then ms else []) ++ arrivedAt fd evs
  | _ :: evs => arrivedAt fd evs

/-- The frames delivered by the calls of `read` for an interface. -/
def deliveredAt (k : Nat) : List GroupOut → List FrameT
  | [] => []
  | .read j _ fs :: outs => (if j = k then fs else []) ++ deliveredAt k outs
  | _ :: outs => deliveredAt k outs

/-- The timeouts of all calls of `select` are positive. -/
def PositiveTimeouts (evs : List GroupEv) : Prop :=
  ∀ ev ∈ evs, ∀ usec ig wr s, ev = .select usec ig wr s → 0 < usec ∧ IsInt 64 usec

/-- Every interface of the group has a socket of its own. -/
def OwnSockets (g : Group) : Prop := (g.interfaces.map Iface.fd).Nodup ∧ ∀ i ∈ g.interfaces, 0 ≤ i.fd

/-- A call of `select` that waits for reading only, and after it one call of `read` for each interface that the group counts. -/
def waitAndRead (g : Group) (usec : Int) (wr : Int → Bool) (signal : Bool) (out : Vector FrameT FramesLen) : List GroupEv :=
  .select usec true wr signal :: (List.range g.getInterfaceCount).map fun k => .read k out 0

end Uavcan.Spec
