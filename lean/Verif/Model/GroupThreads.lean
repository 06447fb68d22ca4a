import Verif.Model.SocketGroup

/-!
# Model: an interface group used by several threads at once

The functions of test/linux/example/media_on_linux/SocketCANInterface.cpp and SocketCANInterfaceGroup.cpp as programs that read and write the data members one
at a time, so that the steps of several threads can be interleaved. What the kernel does with these members in a system call is part of the program; what it
answers is given with the call.

Simplified away: a frame buffer, the statistics and a message header are read and written as a whole (races between their parts are races of the whole);
members that are never written after construction (`interfaces_`, `index_`, `name_`, `socket_descriptor_`, `trx_iovec_`) and thread-local data (`errno`,
arguments) are not locations. `std::vector::reserve` is one access to the vector.
-/

namespace Uavcan.GroupThreads
open SocketCan Can Time

/-- The data members that are written after construction: SocketCANInterface.hpp:64–68 for the interface `k`, SocketCANInterfaceGroup.hpp:35. -/
inductive Loc where
  /-- `trx_socketcan_frames_[i]` -/
  | buf (k i : Nat)
  /-- `trx_msghdrs_[i].msg_hdr` with `trx_control_[i]` -/
  | hdr (k i : Nat)
  /-- `trx_msghdrs_[i].msg_len` -/
  | len (k i : Nat)
  /-- `stats_` -/
  | stats (k : Nat)
  /-- the capacity of `pollfds_` -/
  | polls
  /-- element `i` of `pollfds_` -/
  | poll (i : Nat)
  deriving DecidableEq

/-- What a location holds: SocketCANInterface.hpp:64–68, SocketCANInterfaceGroup.hpp:35. Of a header: the control messages it leads to. -/
abbrev Loc.Val : Loc → Type
  | .buf _ _ => CanfdFrame
  | .hdr _ _ => List Cmsg
  | .len _ _ => Nat
  | .stats _ => Statistics
  | .polls => Nat
  | .poll _ => Int × BitVec 16 × BitVec 16

/-- The contents of the data members, SocketCANInterface.hpp:64–68, SocketCANInterfaceGroup.hpp:35. -/
abbrev Mem := (l : Loc) → l.Val

/-- One location is written. -/
def Mem.set (m : Mem) (l : Loc) (v : l.Val) : Mem := fun x => if h : x = l then h ▸ v else m x

/-- A program that reads and writes data members, as the functions of SocketCANInterface.cpp:96–254 and SocketCANInterfaceGroup.cpp:67–153 do. -/
inductive Prog (α : Type) where
  | done (r : Outcome α)
  | get (l : Loc) (next : l.Val → Prog α)
  | put (l : Loc) (v : l.Val) (next : Prog α)

/-- One program after the other. -/
def Prog.bind {α β : Type} : Prog α → (α → Prog β) → Prog β
  | .done (.ok a), f => f a
  | .done (.ub u), _ => .done (.ub u)
  | .get l next, f => .get l fun v => (next v).bind f
  | .put l v next, f => .put l v (next.bind f)

/-- Alone: the answer and the memory it leaves behind. -/
def Prog.run {α : Type} : Prog α → Mem → Outcome (α × Mem)
  | .done (.ok a), m => .ok (a, m)
  | .done (.ub u), _ => .ub u
  | .get l next, m => (next (m l)).run m
  | .put l v next, m => next.run (m.set l v)

/-- The loop of `write`, SocketCANInterface.cpp:108–118. -/
def fillP (k : Nat) (frames : Vector FrameT FramesLen) : (n i : Nat) → Prog Unit
  | 0, _ => .done (.ok ())
  | n + 1, i =>
    if h : i < FramesLen then
      .get (.buf k i) fun old =>                                                            -- 111
        match copyBytes frames[i].data.toList frames[i].getDataLength 0 old.data with       -- 117
        | .ub u => .done (.ub u)
        | .ok data =>
          .put (.buf k i) { old with
            can_id := CAN_EFF_FLAG ||| (frames[i].id &&& MaskExtID)                         -- 114
            len := BitVec.ofNat 8 frames[i].getDLC                                          -- 115–116
            data := data } (fillP k frames n (i + 1))
    else .done (.ub .outOfBounds)

/-- `sendmmsg` (SocketCANInterface.cpp:120) looks at the headers and the buffers. -/
def sendP (k : Nat) : (n i : Nat) → List CanfdFrame → Prog (List CanfdFrame)
  | 0, _, acc => .done (.ok acc)
  | n + 1, i, acc => .get (.hdr k i) fun _ => .get (.buf k i) fun f => sendP k n (i + 1) (acc ++ [f])

/-- `sendmmsg` (SocketCANInterface.cpp:120) stores the lengths of the messages sent. -/
def sentP (k : Nat) : (n i : Nat) → Prog Unit
  | 0, _ => .done (.ok ())
  | n + 1, i => .put (.len k i) 72 (sentP k n (i + 1))

/-- What a call answers. -/
inductive Ans where
  | wrote (r : Result) (written : Nat) (submitted : List CanfdFrame)
  | got (r : Result) (out_frames : Vector FrameT FramesLen) (read : Nat)
  | filtered (r : Result) (calls : List SetFilter)
  | selected (r : Result) (req : PollReq)
  | stats (s : Option Statistics)

/-- `SocketCANInterface::write`, SocketCANInterface.cpp:96–139. -/
def writeP (k : Nat) (frames : Vector FrameT FramesLen) (n : Nat) (ans : SysAns) : Prog Ans :=
  if n = 0 then .done (.ok (.wrote .BadArgument 0 []))                                      -- 103–106
  else
    (fillP k frames n 0).bind fun _ =>                                                      -- 108–118
    (sendP k n 0 []).bind fun sent =>                                                       -- 120
    (sentP k (min ans.res.toNat n) 0).bind fun _ =>                                         -- 120
    .done (.ok (
      if ans.res ≤ 0 then                                                                   -- 122–129
        if ans.errno = ENOBUFS ∨ ans.errno = EAGAIN then .wrote .BufferFull 0 sent else .wrote .Failure 0 sent
      else if ans.res.toNat < n then .wrote .SuccessPartial ans.res.toNat sent              -- 130–134
      else .wrote .Success ans.res.toNat sent))                                             -- 135–138

/-- `recvmmsg` (SocketCANInterface.cpp:151) reads the headers, stores the messages and updates the headers. -/
def recvP (k : Nat) : List RxMsg → (i : Nat) → Prog Unit
  | [], _ => .done (.ok ())
  | m :: ms, i =>
    if i < FramesLen then
      .get (.hdr k i) fun _ => .get (.buf k i) fun old => .put (.buf k i) (storeMsg old m) (.put (.hdr k i) m.cmsgs (.put (.len k i) 72 (recvP k ms (i + 1))))
    else .done (.ok ())

/-- The message loop of `read`, SocketCANInterface.cpp:159–251. -/
def loopP (k : Nat) : (n i : Nat) → Vector FrameT FramesLen → Nat → Prog (Vector FrameT FramesLen × Nat)
  | 0, _, out, c => .done (.ok (out, c))
  | n + 1, i, out, c =>
    if i < FramesLen then
      .get (.hdr k i) fun cs => .get (.buf k i) fun b => .get (.stats k) fun st =>          -- 161–162, 180, 199–231
        match readOne b cs { stats := st, out_frames := out, out_frames_read := c } with
        | .ub u => .done (.ub u)
        | .ok s => .put (.stats k) s.stats (loopP k n (i + 1) s.out_frames s.out_frames_read)
    else .done (.ok (out, c))

/-- `SocketCANInterface::read`, SocketCANInterface.cpp:141–254. A call of `recvmmsg` that fails has looked at the first header. -/
def readP (k : Nat) (out : Vector FrameT FramesLen) (ans : RecvAns) : Prog Ans :=
  if ans.res ≤ 0 then                                                                       -- 151–157
    .get (.hdr k 0) fun _ =>
      .done (.ok (.got (if ans.res < 0 ∧ ans.errno = EAGAIN then .SuccessNothing else .UnknownInternalError) out 0))
  else
    (recvP k (ans.msgs.take ans.res.toNat) 0).bind fun _ =>                                 -- 151
    (loopP k (ans.msgs.take ans.res.toNat).length 0 out 0).bind fun r =>                    -- 159–251
    .get (.stats k) fun st =>
      .put (.stats k) { st with rx_total := st.rx_total + (BitVec.ofNat 32 r.2).setWidth 64 } -- 252
        (.done (.ok (.got .Success r.1 r.2)))

/-- The loop that fills `pollfds_`, SocketCANInterfaceGroup.cpp:124–127. -/
def pollsP (events : BitVec 16) : (fds : List Int) → (i : Nat) → Prog Unit
  | [], _ => .done (.ok ())
  | fd :: fds, i => .put (.poll i) (fd, events, 0) (pollsP events fds (i + 1))

/-- `ppoll` (SocketCANInterfaceGroup.cpp:133) reads the descriptors. -/
def askP : (n i : Nat) → List (Int × BitVec 16) → Prog (List (Int × BitVec 16))
  | 0, _, acc => .done (.ok acc)
  | n + 1, i, acc => .get (.poll i) fun p => askP n (i + 1) (acc ++ [(p.1, p.2.1)])

/-- `ppoll` (SocketCANInterfaceGroup.cpp:133) stores the events. -/
def eventsP : (n i : Nat) → List (BitVec 16) → Prog Unit
  | 0, _, _ => .done (.ok ())
  | n + 1, i, rs => .get (.poll i) fun p => .put (.poll i) (p.1, p.2.1, rs.headD 0) (eventsP n (i + 1) rs.tail)

/-- The loop over the events, SocketCANInterfaceGroup.cpp:145–152. -/
def errorsP : (n i : Nat) → Prog Result
  | 0, _ => .done (.ok .Success)
  | n + 1, i => .get (.poll i) fun p =>
    if p.2.2 &&& (POLLPRI ||| POLLERR ||| POLLHUP ||| POLLNVAL) ≠ 0 then .done (.ok .SuccessPartial) else errorsP n (i + 1)

/-- `select`, SocketCANInterfaceGroup.cpp:110–153, for interfaces with these descriptors. -/
def selectP (abs : Nat → Int → Outcome Int) (fds : List Int) (timeout : Duration) (ig : Bool) (ans : PollAns) : Prog Ans :=
  let events := if ig then POLLIN ||| POLLPRI else POLLIN ||| POLLPRI ||| POLLOUT           -- 112–118
  .get .polls fun cap => .put .polls (max cap fds.length) <|                                -- 120
  (pollsP events fds 0).bind fun _ =>                                                       -- 124–127
  (Prog.done (do                                                                            -- 129–131
    let tv_sec := timeout.toMicrosecond.tdiv 1000000
    let whole ← signedResult 64 (tv_sec * 1000000)
    let rest ← timeout.sub abs defaultWidth (Duration.fromMicrosecond whole)
    return (tv_sec, rest.toMicrosecond))).bind fun t =>
  (askP fds.length 0 []).bind fun asked =>                                                  -- 133
  (eventsP fds.length 0 ans.revents).bind fun _ =>                                          -- 133
  if ans.res = 0 then .done (.ok (.selected .SuccessTimeout ⟨asked, t.1, t.2⟩))             -- 135–138
  else if ans.res < 0 then .done (.ok (.selected .Failure ⟨asked, t.1, t.2⟩))               -- 140–143
  else (errorsP fds.length 0).bind fun r => .done (.ok (.selected r ⟨asked, t.1, t.2⟩))     -- 145–152

/-- A call for the group, with the kernel's answer: SocketCANInterfaceGroup.cpp:55–153, SocketCANInterface.cpp:86–89. The arguments `out` are the values of
`out_frames_written` and `out_frames_read` before. -/
inductive Call where
  | write (index : Nat) (frames : Vector FrameT FramesLen) (frames_len out : Nat) (ans : SysAns)
  | read (index : Nat) (out_frames : Vector FrameT FramesLen) (out : Nat) (ans : RecvAns)
  /-- up to `rounds` interfaces are looked at before we stop looking at the call -/
  | reconfigureFilters (filters : Option (List Filter)) (num : Nat) (ans : Nat → Int) (rounds : Nat)
  | select (timeout : Duration) (ignore_write_available : Bool) (ans : PollAns)
  /-- `getInterface(index)->getStatistics` -/
  | getStatistics (index : Nat)

/-- The program of a call for a group whose interfaces have these descriptors; SocketCANInterfaceGroup.cpp:55–153. `reconfigureFilters` (96–108) reads
nothing but the descriptors; with more than 255 interfaces it need not end. -/
def Call.prog (abs : Nat → Int → Outcome Int) (fds : List Int) : Call → Prog Ans
  | .write k frames n out ans => if k < fds.length then writeP k frames n ans else .done (.ok (.wrote .BadArgument out []))
  | .read k buf out ans => if k < fds.length then readP k buf ans else .done (.ok (.got .BadArgument buf out))
  | .reconfigureFilters fc num ans rounds =>
    match reconfLoop (fds.map fun fd => Iface.mk' 0 "" fd) fc num ans rounds 0 0 [] with
    | none => .done (.ub .nonTermination)
    | some (.ub u) => .done (.ub u)
    | some (.ok (r, calls)) => .done (.ok (.filtered r calls))
  | .select t ig ans => selectP abs fds t ig ans
  | .getStatistics k => if k < fds.length then .get (.stats k) fun st => .done (.ok (.stats (some st))) else .done (.ok (.stats none))

/-- What a thread does: a call after the other, depending on the answers. -/
inductive Client where
  | stop
  | call (c : Call) (next : Ans → Client)

/-- The thread as a program that answers with the answers it got; SocketCANInterfaceGroup.cpp:55–153. -/
def Client.prog (abs : Nat → Int → Outcome Int) (fds : List Int) : Client → List Ans → Prog (List Ans)
  | .stop, acc => .done (.ok acc)
  | .call c next, acc => (c.prog abs fds).bind fun a => (next a).prog abs fds (acc ++ [a])

/-- One step of a thread. -/
def step {α : Type} (m : Mem) : Prog α → Mem × Prog α
  | .done r => (m, .done r)
  | .get l next => (m, next (m l))
  | .put l v next => (m.set l v, next)

/-- The threads take steps in the order of the schedule; a thread that does not exist takes none. -/
def threads {α : Type} (m : Mem) (ps : List (Prog α)) : List Nat → Mem × List (Prog α)
  | [] => (m, ps)
  | t :: sched =>
    match ps[t]? with
    | none => threads m ps sched
    | some p => threads (step m p).1 (ps.set t (step m p).2) sched

end Uavcan.GroupThreads
