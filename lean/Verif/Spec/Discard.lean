import Verif.Spec.Drain
import Verif.Spec.SocketKernel

/-!
# Specification: the life of a socket, with its filters and its reader
-/

namespace Uavcan.Spec
open SocketCan Can

/-- What happens around a socket: the program does something with a descriptor, a message arrives on a network interface, the socket has an error, the application
calls `read`. -/
inductive LEv where
  | prog (e : FdEv)
  | arrive (ifindex : Int) (m : RxMsg)
  | fail (errno : Int) (h : errno ≠ 11)
  | read (out : Vector FrameT FramesLen)

/-- What of this matters for filters. -/
def LEv.kernel : LEv → Option KEv
  | .prog e => some (.prog e)
  | .arrive x m => some (.arrive x m.frame.can_id)
  | _ => none

/-- The same for a history. -/
def kernelPart (es : List LEv) : List KEv := es.filterMap LEv.kernel

/-- What happens at the receive side of the socket with this descriptor: messages that the socket does not accept do not get there. -/
def rxEvs (fd : Int) : Sock → List LEv → List RxEv
  | _, [] => []
  | s, .prog e :: es => rxEvs fd (s.step fd (.prog e)) es
  | s, .arrive x m :: es => if s.Accepts x m.frame.can_id then .arrive [m] :: rxEvs fd s es else rxEvs fd s es
  | s, .fail e h :: es => .fail e h :: rxEvs fd s es
  | s, .read out :: es => .read out :: rxEvs fd s es

/-- The socket stays, and so do what it is bound to and its filters. -/
def Keeps (fd : Int) : LEv → Prop
  | .prog (.opened x) => x ≠ fd
  | .prog (.closed x) => x ≠ fd
  | .prog (.call x c) => x = fd → bindOf c = none ∧ filterOf c = none
  | _ => True

/-- The messages that arrive on a network interface. -/
def arrivalsAt (x : Int) : List LEv → List RxMsg
  | [] => []
  | .arrive y m :: es => if y = x then m :: arrivalsAt x es else arrivalsAt x es
  | _ :: es => arrivalsAt x es

/-- A message an application with these filters gets: an extended frame that matches one of them (whose mask has bit 29 clear, see C46), other than identifier 0 (see C39),
and a remote frame only if the mask does not forbid it. -/
def Wants (l : List Filter) (id : BitVec 32) : Prop :=
  id.getLsbD 31 = true ∧ id.getLsbD 29 = false ∧ canId29 id ≠ 0 ∧
    ∃ f ∈ l, f.mask.getLsbD 29 = false ∧ (f.mask.getLsbD 30 = true → id.getLsbD 30 = false) ∧ Matches f id

instance (f : Filter) (id : BitVec 32) : Decidable (Matches f id) := by unfold Matches; infer_instance

instance (l : List Filter) (id : BitVec 32) : Decidable (Wants l id) := by unfold Wants; infer_instance

/-- What an application should get while `es` happens: the frames that arrive and match, each once and in order; some may still wait. Nothing else. -/
def GetsOnly (l : List Filter) (x : Int) (es : List LEv) (outs : List (Result × List FrameT)) (r : RxSock) : Prop :=
  (∃ got, (arrivalsAt x es).filter (fun m => Wants l m.frame.can_id) = got ++ r.queue.filter (fun m => Wants l m.frame.can_id) ∧
    AllFrom got (outs.flatMap (·.2))) ∧
  ∀ f ∈ outs.flatMap (·.2), ∃ p ∈ l, Matches p f.id

end Uavcan.Spec
