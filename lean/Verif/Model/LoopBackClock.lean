import Verif.Model.LoopBack

/-!
# Model of the SocketCAN example: the clock and the statistics in the loopback test

`run_test`, `test/linux/example/media_on_linux/main.cpp:240–291`, once more, now with the readings of the steady clock and with what is
printed about statistics and the time-out. Times are nanoseconds. Left out: the lines "Evaluating …" and "...Got all frames …" (304, 323).
-/

namespace Uavcan.SocketCan
open Can Time

/-- One line printed by `print_stats`: the name of the interface and the labelled numbers. -/
structure StatLine where
  name : String
  fields : List (String × BitVec 64)
  deriving DecidableEq

/-- `print_stats` for a pointer that is not null, main.cpp:118–137; `getStatistics` (SocketCANInterface.cpp:86–89) copies all. -/
def printStats (i : Iface) : StatLine :=
  { name := i.name,
    fields := [("rx", i.stats.rx_total), ("rx_dropped", i.stats.rx_dropped), ("err_ack", i.stats.err_ack),
      ("err_bussoff", i.stats.err_bussoff), ("err_buserror", i.stats.err_buserror), ("err_crtl", i.stats.err_crtl),
      ("err_tx_timeout", i.stats.err_tx_timeout), ("err_lostarb", i.stats.err_lostarb), ("err_prot", i.stats.err_prot),
      ("err_trx", i.stats.err_trx), ("err_restarted", i.stats.err_restarted)] }

/-- The loop main.cpp:259–262. The count is at most 255, so the 8-bit index does not wrap around; a null pointer prints nothing (120). -/
def printAll (g : Group) : List StatLine :=
  (List.range g.getInterfaceCount).flatMap fun i => (g.getInterface i).toList.map printStats

/-- What `run_test` prints, with the time it had last read from the clock. -/
inductive Out where
  /-- lines 259–262 -/
  | report (time : Int) (lines : List StatLine)
  /-- line 248 with the number printed -/
  | timedOut (time : Int) (count : Nat)

/-- The world during `run_test` with the readings of the clock: at the end of `start_test` (236), at the beginning (242) and, in
round `k`, at 246 and 256; and the answers of `ppoll` and `recvmmsg` as in `World`. -/
structure ClockWorld where
  started : Int
  begun : Int
  check : Nat → Int
  after : Nat → Int
  poll : Nat → PollAns
  recv : Nat → Nat → RecvAns

/-- `test_timeout_` in seconds, main.cpp:168, 179. -/
def testTimeout : Nat := 10

/-- The condition main.cpp:246. The difference is converted to the common type of both sides, nanoseconds in `std::uint64_t`. -/
def ClockWorld.late (cw : ClockWorld) (k : Nat) : Bool :=
  testTimeout * 1000000000 < (BitVec.ofInt 64 (cw.check k - cw.started)).toNat

/-- The condition main.cpp:257, in nanoseconds in `std::int64_t`. -/
def due (now last_period : Int) : Bool := now - last_period ≥ 1000000000

/-- Output before the rest. -/
def andOut (o : List Out) : Option (Outcome (Result × Group × List Out)) → Option (Outcome (Result × Group × List Out))
  | some (.ok (r, g, os)) => some (.ok (r, g, o ++ os))
  | x => x

/-- `run_test`, main.cpp:240–291, from round `k` on; `last_period` is that of 242 and 263. -/
def runTimed (cw : ClockWorld) : (fuel k : Nat) → Group → LoopBackTest → (last_period : Int) →
    Option (Outcome (Result × Group × List Out))
  | 0, _, _, _, _ => none
  | fuel + 1, k, g, lb, last_period =>
    if cw.late k then some (.ok (lb.result, g, [.timedOut (cw.check k) testTimeout]))        -- 246–250, 290
    else
      match g.select strictAbs (Duration.fromMicrosecond 100000) true (cw.poll k) with       -- 254
      | .ub u => some (.ub u)
      | .ok _ =>
        let now := cw.after k                                                                -- 256
        let out := if due now last_period then [.report now (printAll g)] else []            -- 257–262
        let last_period := if due now last_period then now else last_period                  -- 263
        match readAll (cw.recv k) g.getInterfaceCount 0 g (Vector.replicate FramesLen Frame.default) lb with -- 266–279
        | .ub u => some (.ub u)
        | .ok (g', lb') =>
          if lb'.isComplete g' then                                                          -- 281
            if lb'.continuous then
              andOut out (runTimed cw fuel (k + 1) g' { lb' with result := .Success } last_period) -- 283
            else some (.ok (.Success, g', out))                                              -- 284–287, 290
          else andOut out (runTimed cw fuel (k + 1) g' lb' last_period)

end Uavcan.SocketCan
