import Verif.Model.SocketGroup

/-!
# Model: calls of an interface group

Sequences of calls of the virtual functions that `InterfaceGroup` declares (libuavcan/include/libuavcan/media/interfaces.hpp:60–174), of the
implementation in test/linux/example/media_on_linux/SocketCANInterfaceGroup.cpp:67–153. Each call carries what the kernel answers.
-/

namespace Uavcan.SocketCan
open Can Time

/-- A call: arguments, and what the kernel answers. interfaces.hpp:116–119, 137–139, 156–157, 174. -/
inductive GroupCall where
  | write (index : Nat) (frames : Vector FrameT FramesLen) (frames_len : Nat) (ans : SysAns)
  | read (index : Nat) (out_frames : Vector FrameT FramesLen) (ans : RecvAns)
  | reconfigureFilters (filters : Option (List Filter)) (num : Nat) (ans : Nat → Int)
  | select (timeout : Duration) (ignore_write_available : Bool) (ans : PollAns)

/-- What becomes of a call: its result and the group, or undefined behaviour; a call that never returns is not in the relation.
SocketCANInterfaceGroup.cpp:67–153. -/
inductive Group.Call (abs : Nat → Int → Outcome Int) (g : Group) : GroupCall → Outcome (Result × Group) → Prop where
  | write (index : Nat) (frames : Vector FrameT FramesLen) (n : Nat) (ans : SysAns) (out : Nat) :
      Group.Call abs g (.write index frames n ans) (do let r ← g.write index frames n out ans; return (r.result, r.group))
  | read (index : Nat) (buf : Vector FrameT FramesLen) (ans : RecvAns) (out : Nat) :
      Group.Call abs g (.read index buf ans) (do let r ← g.read index buf out ans; return (r.result, r.group))
  | reconfigureFilters (fc : Option (List Filter)) (num : Nat) (ans : Nat → Int) (fuel : Nat) (o : Outcome (Result × List SetFilter)) :
      g.reconfigureFilters fc num ans fuel = some o →
      Group.Call abs g (.reconfigureFilters fc num ans) (do let r ← o; return (r.1, g))
  | select (timeout : Duration) (ig : Bool) (ans : PollAns) :
      Group.Call abs g (.select timeout ig ans) (do let r ← g.select abs timeout ig ans; return (r.1, g))

/-- Calls one after the other, with their results. -/
inductive Group.Session (abs : Nat → Int → Outcome Int) : Group → List GroupCall → List Result → Group → Prop where
  | nil (g : Group) : Group.Session abs g [] [] g
  | cons {g g' g'' : Group} {c : GroupCall} {cs : List GroupCall} {r : Result} {rs : List Result} :
      g.Call abs c (.ok (r, g')) → Group.Session abs g' cs rs g'' → Group.Session abs g (c :: cs) (r :: rs) g''

end Uavcan.SocketCan
