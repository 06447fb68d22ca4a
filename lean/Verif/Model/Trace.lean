import Verif.Model.SocketCtl

/-!
# Model: what the SocketCAN example prints with traces turned on

`LIBUAVCAN_TRACE` and `LIBUAVCAN_TRACEF` of libuavcan/include/libuavcan/introspection.hpp:37–38 and their uses in
test/linux/example/media_on_linux/SocketCANInterface.cpp and SocketCANInterfaceManager.cpp. The functions are those of `Model/SocketCtl.lean` with the list of
what each call of `printf` prints. Simplified: `printf` never fails.
-/

namespace Uavcan.SocketCan
open Can Time

/-- One call of `printf`, introspection.hpp:37–38. -/
def traceLine (src : String) (msg : List Char) : List Char := src.toList ++ ": ".toList ++ msg ++ ['\r', '\n']

/-- `%u` and its like: SocketCANInterface.cpp:184, 243. -/
def decU (n : Nat) : List Char := Nat.toDigits 10 n

/-- `%d` of an `int` stored in four bytes: SocketCANInterface.cpp:184, 191. -/
def decD (n : Nat) : List Char := if n < 2 ^ 31 then decU n else '-' :: decU (2 ^ 32 - n)

/-- The trace of a frame, SocketCANInterface.cpp:242–245. -/
def rxLine (id : BitVec 32) (t : TimePoint) : List Char :=
  traceLine "SocketCANInterface" ("rx [".toList ++ decU id.toNat ++ ":".toList ++ decU t.toMicrosecond.toNat ++ "]".toList)

/-- The trace of an unknown control message, SocketCANInterface.cpp:183–186. -/
def unknownHeader (type size : Nat) : List Char :=
  traceLine "SocketCANInterface" ("Unknown header found. type=".toList ++ decD type ++ ", size=".toList ++ decU size)

/-- The trace of a control message of an unknown level, SocketCANInterface.cpp:191. -/
def unknownLevel (level : Nat) : List Char := traceLine "SocketCANInterface" ("Unknown header level. level=".toList ++ decD level)

/-- The trace of the destructor, SocketCANInterface.cpp:72. -/
def closing : List Char := traceLine "SocketCANInterface" "closing socket.".toList

/-- The traces of options that are not supported, SocketCANInterfaceManager.cpp:119–121, 127–129, 134–136. -/
def notSupported (option name : String) : List Char :=
  traceLine "SocketCANInterfaceManager" (option.toList ++ " was not supported for socket ".toList ++ name.toList)

/-- What the body of the control message loop prints for the header at `off`, SocketCANInterface.cpp:168–192. -/
def ctlOneT (h : Hdr) (off : Nat) : Outcome (List (List Char)) := do
  let len ← h.load off 8
  let level ← h.load (off + 8) 4
  let type ← h.load (off + 12) 4
  if level = SOL_SOCKET then                                                      -- 168
    if type = SO_TIMESTAMP ∧ TimevalSize ≤ h.controllen then return []            -- 170
    else if type = SO_RXQ_OVFL ∧ 4 ≤ len then return []                           -- 177
    else return [unknownHeader type h.controllen]                                 -- 181–187
  else return [unknownLevel level]                                                -- 189–192

/-- What the control message loop prints from the header at `off` on, SocketCANInterface.cpp:166–193. -/
def ctlLoopT (h : Hdr) (off : Nat) : Outcome (List (List Char)) :=
  match ctlOneT h off, h.load off 8 with
  | .ub u, _ => .ub u
  | _, .ub u => .ub u
  | .ok out, .ok len =>
    match hn : nextHdr h.controllen off len with
    | none => .ok out
    | some off' => do return out ++ (← ctlLoopT h off')
  termination_by h.controllen - off
  decreasing_by exact nextHdr_lt hn

/-- What the control message loop prints, SocketCANInterface.cpp:164–193. -/
def readCtlT (h : Hdr) : Outcome (List (List Char)) :=
  if CmsghdrSize ≤ h.controllen then ctlLoopT h 0 else .ok []

/-- One pass of the message loop of `read` with what it prints, SocketCANInterface.cpp:161–250. -/
def readOneRawT (buf : CanfdFrame) (h : Hdr) (s : ReadState) : Outcome (ReadState × List (List Char)) := do
  let s' ← readOneRaw buf h s
  let ctl ← readCtlT h
  let (timestamp, _) ← readCtl h s.stats
  if buf.can_id &&& CAN_ERR_FLAG ≠ 0 then return (s', ctl)                        -- 195
  else if buf.can_id &&& CAN_EFF_MASK ≠ 0 then                                    -- 234
    return (s', ctl ++ [rxLine buf.can_id timestamp])                             -- 242–245
  else return (s', ctl)

/-- The message loop of `read` with what it prints, SocketCANInterface.cpp:159–251. -/
def readLoopRawT (bufs : Vector CanfdFrame FramesLen) (hs : Vector Hdr FramesLen) :
    (n i : Nat) → ReadState → Outcome (ReadState × List (List Char))
  | 0, _, s => .ok (s, [])
  | n + 1, i, s =>
    if h : i < FramesLen then do
      let (s', out) ← readOneRawT bufs[i] hs[i] s
      let (s'', out') ← readLoopRawT bufs hs n (i + 1) s'
      return (s'', out ++ out')
    else .ok (s, [])

/-- `read` with what it prints, SocketCANInterface.cpp:141–254. -/
def CIface.readT (s : CIface) (out_frames : Vector FrameT FramesLen) (ans : RawAns) : Outcome (RawReadOut × List (List Char)) :=
  if ans.res ≤ 0 then do return (← s.read out_frames ans, [])                     -- 153–157
  else do
    let msgs := ans.msgs.take ans.res.toNat
    let bufs := storeMsgs (msgs.map fun m => ⟨m.classic, m.frame, []⟩) 0 s.iface.bufs
    let hdrs := storeHdrs msgs 0 s.hdrs
    let (_, out) ← readLoopRawT bufs hdrs msgs.length 0
      { stats := s.iface.stats, out_frames := out_frames, out_frames_read := 0 }
    return (← s.read out_frames ans, out)

/-- What happens while traces are on: an interface of a group is read (SocketCANInterface.cpp:141–254), a socket is closed (70–74), or the set-up of a socket
meets an option that is not supported (SocketCANInterfaceManager.cpp:114–137). -/
inductive TraceEvent where
  | read (index : Nat) (out_frames : Vector FrameT FramesLen) (ans : RawAns)
  | close
  | unsupported (option name : String)

/-- The frames each call of `read` delivers, with the index of the interface, and all that is printed. An index that is wrong reads nothing
(SocketCANInterfaceGroup.cpp:86–89). -/
def traceSession : List CIface → List TraceEvent → Outcome (List (Nat × List FrameT) × List (List Char))
  | _, [] => .ok ([], [])
  | ifs, .close :: es => do
    let (d, out) ← traceSession ifs es
    return (d, closing :: out)
  | ifs, .unsupported o n :: es => do
    let (d, out) ← traceSession ifs es
    return (d, notSupported o n :: out)
  | ifs, .read i buf ans :: es =>
    match ifs[i]? with
    | none => traceSession ifs es
    | some s => do
      let (r, out) ← s.readT buf ans
      let (d, out') ← traceSession (ifs.set i r.iface) es
      return ((i, r.out_frames.toList.take r.read) :: d, out ++ out')

end Uavcan.SocketCan
