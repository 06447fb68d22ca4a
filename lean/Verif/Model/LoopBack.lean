import Verif.Model.SocketManager

/-!
# Model of the SocketCAN example: the loopback test

Class `LoopBackTest`, `test/linux/example/media_on_linux/main.cpp:147–351`. The clock is a sequence of answers to the
time-out check, one per round. Console output (and with it `print_stats` and the period it is printed in, 242,
256–264) is left out.
-/

namespace Uavcan.SocketCan
open Can Time

/-- The mutable members of `LoopBackTest` and the flag it depends on, main.cpp:157–161. -/
structure LoopBackTest where
  found : List (BitVec 32)
  continuous : Bool
  result : Result

/-- The constructor, main.cpp:168–183 (members `test_frames_found_`, `run_continuously_`, `test_result_`). -/
def LoopBackTest.mk' (continuous : Bool) : LoopBackTest := ⟨[], continuous, .Failure⟩

/-- `test_frames_`, main.cpp:169–176: two frames, the rest of the array default constructed. -/
def testFrames : Outcome (Vector FrameT FramesLen) := do
  let f0 ← Frame.ofData 1#32 none 0 (TimePoint.fromMicrosecond 0)
  let f1 ← Frame.ofData 2#32 none 0 (TimePoint.fromMicrosecond 1)
  return #v[f0, f1, Frame.default, Frame.default]

/-- `test_filters_`, main.cpp:177. -/
def testFilters : List Filter := [⟨0, 0⟩]

/-- One pass of the inner loop of `evaluate`, main.cpp:313–317. -/
def evalBit (f t : FrameT) (j : Nat) (w : BitVec 32) : Outcome (BitVec 32) :=
  if w &&& (1#32 <<< j) = 0 then do
    let b ← f.eq 0 t
    return if b then w ||| (1#32 <<< j) else w
  else .ok w

/-- The outer loop of `evaluate`, main.cpp:309–319: `n` frames from index `i` on. -/
def evalFrames (tests frames : Vector FrameT FramesLen) : (n i : Nat) → BitVec 32 → Outcome (BitVec 32)
  | 0, _, w => .ok w
  | n + 1, i, w =>
    if h : i < FramesLen then do
      let w ← evalBit frames[i] (tests[0]'(by decide)) 0 w
      let w ← evalBit frames[i] (tests[1]'(by decide)) 1 w
      evalFrames tests frames n (i + 1) w
    else .ub .outOfBounds

/-- `evaluate`, main.cpp:298–328. Its return value is not used by the caller. -/
def LoopBackTest.evaluate (lb : LoopBackTest) (index : Nat) (frames : Vector FrameT FramesLen) (frames_read : Nat) :
    Outcome LoopBackTest :=
  match lb.found[index]? with
  | none => .ub .outOfBounds                                                                 -- 306
  | some w =>
    if w ≠ 3#32 then do                                                                      -- 307
      let tests ← testFrames
      let w' ← evalFrames tests frames frames_read 0 w
      return { lb with found := lb.found.set index w' }
    else .ok lb

/-- `isComplete`, main.cpp:333–350. The loop (337–343) goes over the whole vector, the lengths being equal. -/
def LoopBackTest.isComplete (lb : LoopBackTest) (g : Group) : Bool :=
  g.getInterfaceCount == lb.found.length && 0 < lb.found.length && lb.found.all fun w => w &&& 3#32 == 3#32

/-- The loop over the interfaces, main.cpp:269–279: `n` interfaces from index `i` on. The count is at most 255, so the
8-bit index does not wrap around. The array `frames` (266) is shared by all interfaces. -/
def readAll (ans : Nat → RecvAns) : (n i : Nat) → Group → Vector FrameT FramesLen → LoopBackTest →
    Outcome (Group × LoopBackTest)
  | 0, _, g, _, lb => .ok (g, lb)
  | n + 1, i, g, frames, lb => do
    let r ← g.read i frames 0 (ans i)                                                        -- 271–272
    if !(r.result.not) && 0 < r.read then
      if lb.result.not then do                                                               -- 274
        let lb ← lb.evaluate i r.out_frames r.read                                           -- 276
        readAll ans n (i + 1) r.group r.out_frames lb
      else readAll ans n (i + 1) r.group r.out_frames lb
    else readAll ans n (i + 1) r.group r.out_frames lb

/-- The world during `run_test`: in round `k`, whether the time-out has passed (246), what `ppoll` answers (254) and what
`recvmmsg` answers for each interface (272). -/
structure World where
  late : Nat → Bool
  poll : Nat → PollAns
  recv : Nat → Nat → RecvAns

/-- `run_test`, main.cpp:240–291, from round `k` on. Returns the result and the group. -/
def runTest (wd : World) : (fuel k : Nat) → Group → LoopBackTest → Option (Outcome (Result × Group))
  | 0, _, _, _ => none
  | fuel + 1, k, g, lb =>
    if wd.late k then some (.ok (lb.result, g))                                              -- 246–250, 290
    else
      match g.select strictAbs (Duration.fromMicrosecond 100000) true (wd.poll k) with       -- 254
      | .ub u => some (.ub u)
      | .ok _ =>
        match readAll (wd.recv k) g.getInterfaceCount 0 g (Vector.replicate FramesLen Frame.default) lb with -- 266–279
        | .ub u => some (.ub u)
        | .ok (g', lb') =>
          if lb'.isComplete g' then                                                          -- 281
            if lb'.continuous then runTest wd fuel (k + 1) g' { lb' with result := .Success } -- 283
            else some (.ok (.Success, g'))                                                   -- 284–287, 290
          else runTest wd fuel (k + 1) g' lb'

/-- The loop of `start_test`, main.cpp:215–230: `n` interfaces from index `i` on, `found` as long as the number of
successes so far; `frames_written` (212) is not initialised and only printed. `none` as result means failure. The last
component are the frames given to the kernel, with the descriptors. -/
def writeAll (tests : Vector FrameT FramesLen) (ans : Nat → SysAns) :
    (n i : Nat) → Group → List (BitVec 32) → Outcome (Group × Option (List (BitVec 32)) × List FdEv)
  | 0, _, g, found => .ok (g, some found, [])
  | n + 1, i, g, found => do
    let r ← g.write i tests 2 0 (ans i)                                                      -- 217
    let sent := (g.getInterface i).toList.map fun s => FdEv.call s.fd (.send r.submitted)
    if !(r.result.not) then do
      let (g', fo, evs) ← writeAll tests ans n (i + 1) r.group (found ++ [0])                -- 221
      return (g', fo, sent ++ evs)
    else return (r.group, none, sent)                                                        -- 227–228

/-- `start_test`, main.cpp:191–238. Returns the group given back, the test object and what happened to descriptors. -/
def startTest (m : Manager) (lb : LoopBackTest) (opn : Nat → OpenAns) (snd : Nat → SysAns) (fuel : Nat) :
    Option (Outcome (Option Group × LoopBackTest × List FdEv)) :=
  if 0 < lb.found.length then some (.ok (none, lb, []))                                      -- 195–199
  else if !m.receive_own then some (.ok (none, lb, []))                                      -- 200–205
  else
    match m.startInterfaceGroup (some testFilters) 1 none opn fuel with                      -- 206
    | none => none
    | some (.ub u) => some (.ub u)
    | some (.ok (r, og, evs)) =>
      if r.isFailure then some (.ok (og, lb, evs))                                           -- 207–209
      else
        match og with
        | none => some (.ub .nullDeref)                                                      -- 210
        | some g =>
          some (do
            let tests ← testFrames
            let (g', fo, sent) ← writeAll tests snd g.getInterfaceCount 0 g []               -- 214–230
            if !(0 < g.getInterfaceCount) then                                               -- 213
              return (none, { lb with found := [] }, evs ++ sent ++ closeGroup (some g'))
            match fo with
            | some found => return (some g', { lb with found := found }, evs ++ sent)
            | none => return (none, { lb with found := [] }, evs ++ sent ++ closeGroup (some g'))) -- 231–235

end Uavcan.SocketCan
