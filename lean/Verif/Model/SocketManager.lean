import Verif.Model.SocketGroup

/-!
# Model of the SocketCAN example: the interface manager

`test/linux/example/media_on_linux/SocketCANInterfaceManager.cpp`. The answers of all system calls made for one required
interface are one `OpenAns`; opening, configuring and closing descriptors is recorded as a list of events.

Simplified away: other owners of the `std::shared_ptr` given out (the pointer passed in is taken to be the only
one); exceptions thrown by `new` (a null result, as in 231–235, is modelled); trace output.
-/

namespace Uavcan.SocketCan

/-- What the code asks the kernel to do with an open socket. The line numbers are those of SocketCANInterfaceManager.cpp. -/
inductive SockCall where
  /-- `setsockopt(… CAN_RAW_FD_FRAMES, 1)`, 69 -/
  | canFd
  /-- `setsockopt(… CAN_RAW_RECV_OWN_MSGS, 1)`, 81–82 -/
  | receiveOwn
  /-- `ioctl(… SIOCGIFINDEX …)`, 98 -/
  | ifindex (name : String)
  /-- `bind` to the interface with this index, 105–108 -/
  | bind (ifindex : Int)
  /-- `setsockopt(… SO_TIMESTAMP, 1)`, 117 -/
  | timestamp
  /-- `setsockopt(… SO_RXQ_OVFL, 1)`, 125 -/
  | rxqOvfl
  /-- `setsockopt(… CAN_RAW_ERR_FILTER, CAN_ERR_MASK)`, 132 -/
  | errFilter
  /-- `getsockopt(… SO_ERROR …)`, 144 -/
  | soError
  /-- `setsockopt(… CAN_RAW_FILTER …)`, SocketCANInterfaceGroup.cpp:170, 189 -/
  | filters (call : SetFilter)
  /-- `sendmmsg`, SocketCANInterface.cpp:116 -/
  | send (frames : List CanfdFrame)
  deriving DecidableEq

/-- What happens to socket descriptors. -/
inductive FdEv where
  | opened (fd : Int)
  | closed (fd : Int)
  | call (fd : Int) (c : SockCall)
  deriving DecidableEq

/-- Answers of the system calls for one interface, in the order made (SocketCANInterfaceManager.cpp:58, 69, 82, 98, 98, 108,
117, 125, 132, 144; SocketCANInterfaceGroup.cpp:170/189) and whether `new` (230) fails. -/
structure OpenAns where
  socket : Int
  canfd : Int := 0
  own : Int := 0
  ioctl : Int := 0
  ifindex : Int := 1
  bind : Int := 0
  timestamp : Int := 0
  rxqOvfl : Int := 0
  errFilter : Int := 0
  soError : Int := 0
  filter : Int := 0
  oom : Bool := false

/-- The members of `SocketCANInterfaceManager`, SocketCANInterfaceManager.hpp:34–36. -/
structure Manager where
  required : List String
  enable_can_fd : Bool
  receive_own : Bool

/-- `IFNAMSIZ` of `<net/if.h>`. -/
def IFNAMSIZ : Nat := 16

/-- The name that `strncpy` copies into `ifr.ifr_name`, SocketCANInterfaceManager.cpp:97: the characters before the first null
character (the structure was zeroed in 91). -/
def cName (s : String) : String := String.ofList (s.toList.takeWhile (· ≠ '\x00'))

/-- `openSocket`, SocketCANInterfaceManager.cpp:54–154. The failures at 117, 125 and 132 are ignored by the code. A socket
that is not returned is closed by `raii_closer` (64). -/
def openSocket (iface_name : String) (enable_canfd enable_own : Bool) (a : OpenAns) : Int × List FdEv :=
  if a.socket < 0 then (a.socket, [])                                                        -- 59–62
  else
    let fail (calls : List SockCall) : Int × List FdEv :=
      (-1, .opened a.socket :: (calls.map (.call a.socket) ++ [.closed a.socket]))
    let c1 : List SockCall := if enable_canfd then [.canFd] else []                          -- 66–69
    let c2 : List SockCall := c1 ++ (if enable_own then [.receiveOwn] else [])               -- 77–82
    let c3 : List SockCall := c2 ++ [.ifindex (cName iface_name)]                            -- 97–98
    let c4 : List SockCall := c3 ++ [.bind a.ifindex]                                        -- 105–108
    let c5 : List SockCall := c4 ++ [.timestamp, .rxqOvfl, .errFilter, .soError]             -- 115–144
    if enable_canfd && a.canfd != 0 then fail c1                                             -- 71–74
    else if enable_own && a.own != 0 then fail c2                                            -- 84–87
    else if iface_name.utf8ByteSize ≥ IFNAMSIZ then fail c2                                  -- 92–96
    else if a.ioctl < 0 || a.ifindex < 0 then fail c3                                        -- 98–101
    else if a.bind < 0 then fail c4                                                          -- 108–111
    else if a.soError != 0 then fail c5                                                      -- 145–149
    else (a.socket, .opened a.socket :: c5.map (.call a.socket))                             -- 152–153

/-- `createInterface`, SocketCANInterfaceManager.cpp:212–241. -/
def Manager.createInterface (m : Manager) (index : Nat) (name : String) (fc : Option (List Filter)) (num : Nat)
    (a : OpenAns) : Outcome (Result × Option Iface × List FdEv) :=
  let (s, evs) := openSocket name m.enable_can_fd m.receive_own a                            -- 219
  if s ≤ 0 then .ok (.UnknownInternalError, none, evs)                                       -- 220–223
  else do
    let (r, call) ← configureFilters s fc num a.filter                                       -- 225
    let evs := evs ++ call.toList.map fun c => .call s (.filters c)
    if r.not then return (r, none, evs ++ [.closed s])                                       -- 226–229, 224
    else if a.oom then return (.OutOfMemory, none, evs ++ [.closed s])                       -- 231–235, 224
    else return (.Success, some (Iface.mk' index name s), evs)                               -- 230, 236–240

/-- The loop of `startInterfaceGroup`, SocketCANInterfaceManager.cpp:178–185. The index `i` is `std::uint_fast8_t`, 8 bits
wide; `ans k` are the answers in the `k`-th pass. -/
def Manager.startLoop (m : Manager) (fc : Option (List Filter)) (num : Nat) (ans : Nat → OpenAns) :
    (fuel i k : Nat) → List Iface → List FdEv → Option (Outcome (List Iface × List FdEv))
  | 0, _, _, _, _ => none
  | fuel + 1, i, k, ifs, evs =>
    match m.required[i]? with
    | none => some (.ok (ifs, evs))
    | some name =>
      match m.createInterface i name fc num (ans k) with                                     -- 181
      | .ub u => some (.ub u)
      | .ok (r, itf, e) =>
        m.startLoop fc num ans fuel ((i + 1) % 2 ^ 8) (k + 1)
          (if !(r.not) then ifs ++ itf.toList else ifs) (evs ++ e)                           -- 181–184

/-- The destruction of a group: every interface closes its descriptor, SocketCANInterface.cpp:70–74. -/
def closeGroup : Option Group → List FdEv
  | none => []
  | some g => g.interfaces.map fun i => .closed i.fd

/-- `startInterfaceGroup`, SocketCANInterfaceManager.cpp:170–196. Returns the result, the new value of `out_group` and the
events. -/
def Manager.startInterfaceGroup (m : Manager) (fc : Option (List Filter)) (num : Nat) (out_group : Option Group)
    (ans : Nat → OpenAns) (fuel : Nat) : Option (Outcome (Result × Option Group × List FdEv)) :=
  match m.startLoop fc num ans fuel 0 0 [] [] with
  | none => none
  | some (.ub u) => some (.ub u)
  | some (.ok (ifs, evs)) =>
    if ifs.length = 0 then some (.ok (.NotFound, out_group, evs))                            -- 186–189
    else                                                                                     -- 192–194
      let g : Group := ⟨ifs⟩
      some (.ok (if g.getInterfaceCount ≥ m.required.length then .Success else .SuccessPartial, some g,
        evs ++ closeGroup out_group))

/-- `stopInterfaceGroup`, SocketCANInterfaceManager.cpp:198–205. -/
def Manager.stopInterfaceGroup (_ : Manager) (out_group : Option Group) : Result × Option Group × List FdEv :=
  (.Success, none, closeGroup out_group)

/-- `getMaxFrameFilters`, SocketCANInterfaceManager.cpp:243–248. -/
def Manager.getMaxFrameFilters (_ : Manager) : Nat := 512

/-- Calls on a manager. -/
inductive ManagerOp where
  | start (fc : Option (List Filter)) (num : Nat) (ans : Nat → OpenAns)
  | stop

/-- One call, on the pointer the application holds. -/
def Manager.step (m : Manager) (fuel : Nat) (g : Option Group) : ManagerOp → Option (Outcome (Option Group × List FdEv))
  | .start fc num ans =>
    match m.startInterfaceGroup fc num g ans fuel with
    | none => none
    | some (.ub u) => some (.ub u)
    | some (.ok (_, g', evs)) => some (.ok (g', evs))
  | .stop => some (.ok ((m.stopInterfaceGroup g).2.1, (m.stopInterfaceGroup g).2.2))

/-- A history of calls. -/
def Manager.run (m : Manager) (fuel : Nat) (g : Option Group) (evs : List FdEv) :
    List ManagerOp → Option (Outcome (Option Group × List FdEv))
  | [] => some (.ok (g, evs))
  | op :: ops =>
    match m.step fuel g op with
    | none => none
    | some (.ub u) => some (.ub u)
    | some (.ok (g', e)) => m.run fuel g' (evs ++ e) ops

end Uavcan.SocketCan
