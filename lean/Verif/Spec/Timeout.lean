import Verif.Spec.WallClock

/-!
# Specification: time-outs between frames

The doc comment of `read` (interfaces.hpp 127–131) says what time stamps are for: "protocol timing validation (i.e. transfer timeouts and inter-transfer intervals)". This is how an application does that.
-/

namespace Uavcan.Spec
open SocketCan Time

/-- `g.timestamp >= f.timestamp + timeout` -/
def timedOut (f g : FrameT) (timeout : Int) : Outcome Bool := do
  let x ← TimePoint.add defaultWidth f.timestamp (Duration.fromMicrosecond timeout)
  return g.timestamp.ge x

end Uavcan.Spec
