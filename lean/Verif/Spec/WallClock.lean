import Verif.Spec.SocketCtl

/-!
# Specification: the clocks of the kernel

Linux stamps a message on arrival with `CLOCK_REALTIME` (`net/core/sock.c`, `__sock_recv_timestamp`; `SO_TIMESTAMP` gives
seconds and microseconds). That clock tells the time of day and is set by users and by NTP. `CLOCK_MONOTONIC` counts the time
that passes. Nothing of this is in the repository.
-/

namespace Uavcan.Spec
open SocketCan

/-- What happens around an interface. -/
inductive TEv where
  /-- microseconds pass -/
  | pass (us : Nat)
  /-- the time of day is set, forward or back -/
  | set (delta : Int)
  /-- a message arrives -/
  | msg (classic : Bool) (frame : CanfdFrame)

/-- A message, and at its arrival: the time that has passed, the sum of the changes to the time of day, and the time of
day, all in microseconds. -/
structure Timed where
  classic : Bool
  frame : CanfdFrame
  passed : Nat
  changed : Int
  day : Int

/-- The messages that arrive, if `passed`, `changed` and `day` are as given at first. -/
def timeline (passed : Nat) (changed day : Int) : List TEv → List Timed
  | [] => []
  | .pass us :: es => timeline (passed + us) changed (day + us) es
  | .set d :: es => timeline passed (changed + d) (day + d) es
  | .msg c f :: es => ⟨c, f, passed, changed, day⟩ :: timeline passed changed day es

/-- The time stamp the kernel puts on a message: seconds and microseconds of the time of day. -/
def Timed.arrival (t : Timed) : Arrival :=
  ⟨t.classic, t.frame, BitVec.ofInt 64 (t.day / 1000000), BitVec.ofInt 64 (t.day % 1000000), 0⟩

/-- After 1969, and before the year 280000. -/
def Timed.Plausible (t : Timed) : Prop := 0 ≤ t.day ∧ t.day < 2 ^ 43 * 1000000

/-- The frames a history of calls delivers, in order. -/
def delivery (o : SockOpts) (s : CIface) : List KOp → Outcome (List FrameT)
  | [] => .ok []
  | .arrive out as :: ops => do
    let r ← s.read out (arriveAns o s as)
    let fs ← delivery o r.iface ops
    return r.out_frames.toList.take r.read ++ fs
  | op :: ops => do
    let s' ← kstep o s op
    delivery o s' ops

end Uavcan.Spec
