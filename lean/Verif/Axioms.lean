import Lean
import Verif.Props.Arbitration
import Verif.Props.Boot
import Verif.Props.BuildConfig
import Verif.Props.BuildScripts
import Verif.Props.ByteOrder
import Verif.Props.Can
import Verif.Props.CompileTime
import Verif.Props.Configure
import Verif.Props.Containers
import Verif.Props.CopyBits
import Verif.Props.CopyBitsOverlap
import Verif.Props.CopyBitsRound
import Verif.Props.CopyBitsShift
import Verif.Props.CoreClock
import Verif.Props.Coverage
import Verif.Props.CtlData
import Verif.Props.Deadline
import Verif.Props.Deque
import Verif.Props.Discard
import Verif.Props.Drain
import Verif.Props.EventLoop
import Verif.Props.FormatCheck
import Verif.Props.FrameTest
import Verif.Props.GenHeader
import Verif.Props.GivingUp
import Verif.Props.GroupCalls
import Verif.Props.GroupThreads
import Verif.Props.Links
import Verif.Props.LoopBack
import Verif.Props.LoopBackClock
import Verif.Props.Macros
import Verif.Props.MathTest
import Verif.Props.MathTestMeaning
import Verif.Props.Message
import Verif.Props.MoveBits
import Verif.Props.OnTarget
import Verif.Props.ParseArgs
import Verif.Props.Pool
import Verif.Props.PoolConc
import Verif.Props.PoolInit
import Verif.Props.PoolInterrupt
import Verif.Props.PoolList
import Verif.Props.PoolQueue
import Verif.Props.PoolRace
import Verif.Props.PoolThreads
import Verif.Props.PoolTime
import Verif.Props.PoolWait
import Verif.Props.Redundant
import Verif.Props.RegisterUse
import Verif.Props.Registers
import Verif.Props.Result
import Verif.Props.ResultTest
import Verif.Props.SatMath
import Verif.Props.Sender
import Verif.Props.SharedPool
import Verif.Props.SharedQueues
import Verif.Props.SocketCan
import Verif.Props.SocketCtl
import Verif.Props.SocketGroup
import Verif.Props.SocketKernel
import Verif.Props.SocketManager
import Verif.Props.SocketSend
import Verif.Props.Startup
import Verif.Props.Stdio
import Verif.Props.Stream
import Verif.Props.Suite
import Verif.Props.Templates
import Verif.Props.TestSys
import Verif.Props.Time
import Verif.Props.TimeProgram
import Verif.Props.TimeTest
import Verif.Props.Timeout
import Verif.Props.Trace
import Verif.Props.Transfer
import Verif.Props.TxQueue
import Verif.Props.Waiting
import Verif.Props.WallClock

/-!
# Axiom audit

Fails the build if any theorem of this development depends on an axiom other than Lean's three standard
ones. (This inspects the environment; it adds nothing to it.)
-/

open Lean Elab Command in
run_cmd do
  let env ← getEnv
  let allowed : List Name := [``propext, ``Classical.choice, ``Quot.sound]
  let mut checked : Nat := 0
  for (name, info) in env.constants.map₁.toList do
    if (`Uavcan).isPrefixOf name then
      if let .thmInfo _ := info then
        let axs ← collectAxioms name
        for a in axs do
          unless allowed.contains a do
            throwError "{name} depends on {a}"
        checked := checked + 1
      if let .axiomInfo _ := info then
        throwError "{name} is an axiom"
  if checked = 0 then throwError "nothing was checked"
  logInfo m!"{checked} theorems checked: only propext, Classical.choice, Quot.sound"
