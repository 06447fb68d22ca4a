import Verif.Model.LoopBackClock
import Verif.Spec.LoopBack

/-!
# Specification of the clock and the statistics in the loopback test
-/

namespace Uavcan.Spec
open SocketCan

/-- Ten seconds. -/
def tenSeconds : Int := 10000000000

/-- Round `k` is reached: the check before it did not find the ten seconds over. -/
def Reached (cw : ClockWorld) (k : Nat) : Prop := k = 0 ∨ cw.check (k - 1) - cw.started ≤ tenSeconds

/-- A steady clock: readings never go back (and fit 64 bits while the test runs). -/
def Steady (cw : ClockWorld) : Prop :=
  0 ≤ cw.started ∧ cw.started ≤ cw.begun ∧ cw.begun ≤ cw.check 0 ∧
    (∀ k, cw.check k ≤ cw.after k ∧ cw.after k ≤ cw.check (k + 1)) ∧ ∀ k, Reached cw k → cw.check k < 2 ^ 63

/-- One second. -/
def oneSecond : Int := 1000000000

/-- The world as `Spec/LoopBack` sees it: only whether ten seconds are over. -/
def worldOf (cw : ClockWorld) : World where
  late k := decide (tenSeconds < cw.check k - cw.started)
  poll := cw.poll
  recv := cw.recv

/-- The messages received on interface `i` before round `k`. -/
def msgsBefore (cw : ClockWorld) (i : Nat) : Nat → List RxMsg
  | 0 => []
  | k + 1 => msgsBefore cw i k ++ got (cw.recv k i)

/-- The label of the number of errors of a class. -/
def errLabel : ErrClass → String
  | .txTimeout => "err_tx_timeout" | .lostArb => "err_lostarb" | .crtl => "err_crtl" | .prot => "err_prot" | .trx => "err_trx"
  | .ack => "err_ack" | .busOff => "err_bussoff" | .busError => "err_buserror" | .restarted => "err_restarted"

/-- A line is right about an interface on which these messages have been received: there is a number for every label, that of
data frames and those of errors are the numbers of such messages, and that of drops is the sum of all reported by the kernel
(which is not the number of frames dropped, see C42). -/
def RightLine (name : String) (ms : List RxMsg) (l : StatLine) : Prop :=
  l.name = name ∧
  ∀ label v, (label, v) ∈ l.fields ↔
    (label = "rx" ∧ v = BitVec.ofNat 64 (ms.filter fun m => Delivers m.frame.can_id).length) ∨
    (label = "rx_dropped" ∧ v = (ms.flatMap fun m => dropsOf m.cmsgs).foldr (fun d a => d.setWidth 64 + a) 0) ∨
    ∃ c, label = errLabel c ∧ v = BitVec.ofNat 64 (ms.filter (Reports c)).length

/-- A report is right about a group before round `k`: one line for each interface, in order. -/
def RightReport (cw : ClockWorld) (g : Group) (k : Nat) (lines : List StatLine) : Prop :=
  lines.length = g.interfaces.length ∧
  ∀ i (l : StatLine) (s : Iface), lines[i]? = some l → g.interfaces[i]? = some s → RightLine s.name (msgsBefore cw i k) l

end Uavcan.Spec
