import Verif.Model.SocketCan

/-!
# Model of the SocketCAN example: the interface group

`test/linux/example/media_on_linux/SocketCANInterfaceGroup.cpp`. Kernel answers are arguments, as in `Model/SocketCan`.
Calls that can fail to terminate take fuel and return `none` when it runs out: the C++ code returns if and
only if some amount of fuel gives `some`.

Simplified away: `pollfds_` is a `std::vector` used beyond its size (but within its capacity, which 120 reserves); the
elements written are modelled as plain memory.
-/

namespace Uavcan.SocketCan
open Can Time

/-- `SocketCANInterfaceGroup::interfaces_`, SocketCANInterfaceGroup.hpp:34. -/
structure Group where
  interfaces : List Iface

namespace Group

/-- `getInterfaceCount`, SocketCANInterfaceGroup.cpp:36–40. -/
def getInterfaceCount (g : Group) : Nat := min 255 g.interfaces.length

/-- `getInterfaceName`, SocketCANInterfaceGroup.cpp:42–53. -/
def getInterfaceName (g : Group) (index : Nat) : String :=
  match g.interfaces[index]? with
  | none => "<bad index>"
  | some i => i.name

/-- `getInterface`, SocketCANInterfaceGroup.cpp:55–65; a null pointer is `none`. -/
def getInterface (g : Group) (index : Nat) : Option Iface := g.interfaces[index]?

/-- What the group's `write` leaves behind. -/
structure WriteOut where
  result : Result
  written : Nat
  group : Group
  submitted : List CanfdFrame

/-- `write`, SocketCANInterfaceGroup.cpp:67–80; `out` is the value of `out_frames_written` before the call. -/
def write (g : Group) (index : Nat) (frames : Vector FrameT FramesLen) (frames_len out : Nat) (ans : SysAns) :
    Outcome WriteOut :=
  match g.interfaces[index]? with
  | none => .ok { result := .BadArgument, written := out, group := g, submitted := [] }      -- 72–75
  | some i => do
    let r ← i.write frames frames_len ans                                                    -- 78
    return { result := r.result, written := r.written, group := ⟨g.interfaces.set index r.iface⟩,
             submitted := r.submitted }

/-- What the group's `read` leaves behind. -/
structure ReadOut where
  result : Result
  out_frames : Vector FrameT FramesLen
  read : Nat
  group : Group

/-- `read`, SocketCANInterfaceGroup.cpp:82–94. -/
def read (g : Group) (index : Nat) (out_frames : Vector FrameT FramesLen) (out : Nat) (ans : RecvAns) :
    Outcome ReadOut :=
  match g.interfaces[index]? with
  | none => .ok { result := .BadArgument, out_frames := out_frames, read := out, group := g } -- 86–89
  | some i => do
    let r ← i.read out_frames ans                                                            -- 92
    return { result := r.result, out_frames := r.out_frames, read := r.read,
             group := ⟨g.interfaces.set index r.iface⟩ }

end Group

/-! ## Filters -/

/-- `CAN::Frame::Filter`, can.hpp:258–288. -/
structure Filter where
  id : BitVec 32
  mask : BitVec 32
  deriving DecidableEq

/-- `struct can_filter` of `<linux/can.h>`. -/
structure CanFilter where
  can_id : BitVec 32
  can_mask : BitVec 32
  deriving DecidableEq

/-- `CAN_RAW_FILTER_MAX` of `<linux/can.h>`. -/
def CAN_RAW_FILTER_MAX : Nat := 512

/-- A call `setsockopt(fd, SOL_CAN_RAW, CAN_RAW_FILTER, filters, optlen)`. -/
structure SetFilter where
  fd : Int
  filters : List CanFilter
  optlen : Nat
  deriving DecidableEq

/-- One pass of the loop of `configureFilters`, SocketCANInterfaceGroup.cpp:179–182. -/
def toCanFilter (fc : Filter) : CanFilter :=
  ⟨(fc.id &&& MaskExtID) ||| CAN_EFF_FLAG, fc.mask ||| CAN_EFF_FLAG⟩

/-- The loop of `configureFilters`, SocketCANInterfaceGroup.cpp:177–183. A null pointer is `none`; otherwise the list is
what can be read at `filter_configs`. The index is `unsigned` (32 bits) and wraps around, so the loop does not end
if `num_configs` is 2^32 or more. -/
def collectFilters (filter_configs : Option (List Filter)) (num_configs : Nat) : Outcome (List CanFilter) :=
  match filter_configs with
  | none => .ub .nullDeref
  | some l =>
    if l.length < min num_configs (2 ^ 32) then .ub .outOfBounds
    else if 2 ^ 32 ≤ num_configs then .ub .nonTermination
    else .ok ((l.take num_configs).map toCanFilter)

/-- `configureFilters`, SocketCANInterfaceGroup.cpp:155–199. Returns the result and the `setsockopt` call made, if any;
`ans` is its return value. `sizeof(can_filter)` is 8 and `socklen_t` has 32 bits. -/
def configureFilters (fd : Int) (filter_configs : Option (List Filter)) (num_configs : Nat) (ans : Int) :
    Outcome (Result × Option SetFilter) :=
  if filter_configs = none ∧ num_configs ≠ 0 ∧ num_configs ≤ CAN_RAW_FILTER_MAX then
    .ok (.BadArgument, none)                                                                 -- 159–162
  else if num_configs = 0 then                                                               -- 166–175
    .ok (if ans ≠ 0 then .UnknownInternalError else .Success, some ⟨fd, [], 0⟩)
  else do
    let fs ← collectFilters filter_configs num_configs                                       -- 177–183
    return (if ans ≠ 0 then .UnknownInternalError else .Success,                             -- 189–198
            some ⟨fd, fs, (8 * fs.length) % 2 ^ 32⟩)

/-- The loop of `reconfigureFilters`, SocketCANInterfaceGroup.cpp:99–107. The index is `std::uint8_t`; `ans k` is the
answer to the `k`-th call of `configureFilters`, `calls` the `setsockopt` calls so far. -/
def reconfLoop (ifs : List Iface) (fc : Option (List Filter)) (num : Nat) (ans : Nat → Int) :
    (fuel i k : Nat) → (calls : List SetFilter) → Option (Outcome (Result × List SetFilter))
  | 0, _, _, _ => none
  | fuel + 1, i, k, calls =>
    match ifs[i]? with
    | none => some (.ok (.Success, calls))                                                   -- 99, 107
    | some s =>
      match configureFilters s.fd fc num (ans k) with                                        -- 101
      | .ub r => some (.ub r)
      | .ok (r, call) =>
        if r.not then some (.ok (r, calls ++ call.toList))                                   -- 102–105
        else reconfLoop ifs fc num ans fuel ((i + 1) % 2 ^ 8) (k + 1) (calls ++ call.toList)

/-- `reconfigureFilters`, SocketCANInterfaceGroup.cpp:96–108. -/
def Group.reconfigureFilters (g : Group) (fc : Option (List Filter)) (num : Nat) (ans : Nat → Int) (fuel : Nat) :
    Option (Outcome (Result × List SetFilter)) :=
  reconfLoop g.interfaces fc num ans fuel 0 0 []

/-! ## select -/

/-- `POLLIN` of `<poll.h>`. -/
def POLLIN : BitVec 16 := 0x001#16
/-- `POLLPRI` of `<poll.h>`. -/
def POLLPRI : BitVec 16 := 0x002#16
/-- `POLLOUT` of `<poll.h>`. -/
def POLLOUT : BitVec 16 := 0x004#16
/-- `POLLERR` of `<poll.h>`. -/
def POLLERR : BitVec 16 := 0x008#16
/-- `POLLHUP` of `<poll.h>`. -/
def POLLHUP : BitVec 16 := 0x010#16
/-- `POLLNVAL` of `<poll.h>`. -/
def POLLNVAL : BitVec 16 := 0x020#16

/-- The arguments of `ppoll`: descriptors with requested events, and the timeout. -/
structure PollReq where
  fds : List (Int × BitVec 16)
  tv_sec : Int
  tv_nsec : Int
  deriving DecidableEq

/-- The answer of `ppoll`: return value and the returned events, one entry per descriptor. -/
structure PollAns where
  res : Int
  revents : List (BitVec 16)

/-- The loop over the returned events, SocketCANInterfaceGroup.cpp:145–152. -/
def pollLoop : List (BitVec 16) → Result
  | [] => .Success
  | r :: rs => if r &&& (POLLPRI ||| POLLERR ||| POLLHUP ||| POLLNVAL) ≠ 0 then .SuccessPartial else pollLoop rs

/-- `select`, SocketCANInterfaceGroup.cpp:110–153; `abs` is `std::abs` (see `Model/SatMath`). Returns the result and what
`ppoll` was asked. The arithmetic in 129–131 is done in `std::int64_t` (`time_t` and `long` have 64 bits); C++
division truncates towards zero. -/
def Group.select (abs : Nat → Int → Outcome Int) (g : Group) (timeout : Duration) (ignore_write_available : Bool)
    (ans : PollAns) : Outcome (Result × PollReq) := do
  let events := if ignore_write_available then POLLIN ||| POLLPRI else POLLIN ||| POLLPRI ||| POLLOUT -- 112–118
  let fds := g.interfaces.map fun i => (i.fd, events)                                        -- 124–127
  let tv_sec := timeout.toMicrosecond.tdiv 1000000                                           -- 129
  let whole ← signedResult 64 (tv_sec * 1000000)                                             -- 131
  let rest ← timeout.sub abs defaultWidth (Duration.fromMicrosecond whole)                   -- 131
  let req : PollReq := { fds := fds, tv_sec := tv_sec, tv_nsec := rest.toMicrosecond }       -- 130–131
  if ans.res = 0 then return (.SuccessTimeout, req)                                          -- 135–138
  else if ans.res < 0 then return (.Failure, req)                                            -- 140–143
  else return (pollLoop (ans.revents.take g.interfaces.length), req)                         -- 145–152

end Uavcan.SocketCan
