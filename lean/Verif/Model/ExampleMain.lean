import Verif.Model.LoopBack
import Verif.Model.ParseArgs

/-!
# Model of the SocketCAN example: `main`

`test/linux/example/media_on_linux/main.cpp:358–404`. Console output is left out. The destructors that run on the way out
close sockets only through `stopInterfaceGroup` (called by `raii_stopper`, 390–391) and through the last pointer to a
group; both are recorded as events.
-/

namespace Uavcan.SocketCan
open ParseArgs

/-- What the system does while the example runs: for the interfaces in the order they are required, the calls that open
them; for the interfaces of the group, the answers to the first `sendmmsg`; and the world of `run_test`. -/
structure Env where
  opn : Nat → OpenAns
  snd : Nat → SysAns
  world : World

/-- `main`, main.cpp:358–404: the exit status and the events. -/
def exampleMain (args : List Str) (env : Env) (fuel : Nat) : Option (Outcome (Int × List FdEv)) :=
  match parseArgs args with                                                                  -- 362
  | .ub u => some (.ub u)
  | .ok (r, ns) =>
    if r ≠ .Success then some (.ok (-1, []))                                                 -- 362–366
    else
      let m : Manager := ⟨ns.devices.map String.ofList, true, true⟩                          -- 369
      match startTest m (LoopBackTest.mk' ns.run_continuously) env.opn env.snd fuel with     -- 372, 375
      | none => none
      | some (.ub u) => some (.ub u)
      | some (.ok (none, _, evs)) => some (.ok (-1, evs))                                    -- 377–380
      | some (.ok (some g, lb, evs)) =>
        match runTest env.world fuel 0 g lb with                                             -- 395
        | none => none
        | some (.ub u) => some (.ub u)
        | some (.ok (r, g')) =>
          some (.ok (if r.not then -1 else 0, evs ++ (m.stopInterfaceGroup (some g')).2.2))  -- 383–404

end Uavcan.SocketCan
