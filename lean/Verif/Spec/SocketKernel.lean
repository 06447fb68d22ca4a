import Verif.Spec.SocketManager
import Verif.Spec.SocketGroup

/-!
# Specification of a CAN socket of the kernel

How Linux (`net/can/raw.c`) decides which messages it puts into the receive queue of a raw CAN socket. Calls that the
kernel refuses are taken to have their effect as well: the code closes such a socket at once, except for the settings
named in `C66`, which play no role here.
-/

namespace Uavcan.Spec
open SocketCan

/-- What happens around a socket: something the program does, or a message that arrives on a network interface. -/
inductive KEv where
  | prog (e : FdEv)
  | arrive (ifindex : Int) (rx : BitVec 32)

/-- What the program did. -/
def progOf (es : List KEv) : List FdEv := es.filterMap fun | .prog e => some e | .arrive _ _ => none

/-- A socket: the calls made on it since it was opened, and the identifiers of the messages received, in order. -/
structure Sock where
  calls : List SockCall
  queue : List (BitVec 32)
  deriving DecidableEq

/-- The network interface a call binds to. -/
def bindOf : SockCall → Option Int
  | .bind x => some x
  | _ => none

/-- The filters a call sets. -/
def filterOf : SockCall → Option SetFilter
  | .filters c => some c
  | _ => none

/-- The network interface a socket is bound to. -/
def Sock.boundTo (s : Sock) : Option Int := (s.calls.filterMap bindOf).getLast?

/-- The filters last set. -/
def Sock.filterSet (s : Sock) : Option SetFilter := (s.calls.filterMap filterOf).getLast?

instance (f : CanFilter) (rx : BitVec 32) : Decidable (Passes f rx) := by unfold Passes; infer_instance

instance (c : SetFilter) (rx : BitVec 32) : Decidable (Receives c rx) := by unfold Receives; infer_instance

/-- A message is put into the queue: data if a filter lets it through (all data, if no filters were set), error messages if
they were asked for. -/
def Sock.Accepts (s : Sock) (x : Int) (rx : BitVec 32) : Prop :=
  s.boundTo = some x ∧
    if IsErr rx then .errFilter ∈ s.calls
    else match s.filterSet with
      | none => True
      | some c => Receives c rx

instance (s : Sock) (x : Int) (rx : BitVec 32) : Decidable (s.Accepts x rx) := by
  unfold Sock.Accepts
  cases s.filterSet <;> infer_instance

/-- What an event does to the socket with a descriptor. -/
def Sock.step (fd : Int) (s : Sock) : KEv → Sock
  | .prog (.opened x) => if x = fd then ⟨[], []⟩ else s
  | .prog (.closed x) => if x = fd then ⟨[], []⟩ else s
  | .prog (.call x c) => if x = fd then { s with calls := s.calls ++ [c] } else s
  | .arrive x rx => if s.Accepts x rx then { s with queue := s.queue ++ [rx] } else s

/-- The socket with a descriptor after some events. -/
def sockAfter (fd : Int) (es : List KEv) : Sock := es.foldl (Sock.step fd) ⟨[], []⟩

/-- The calls made on a descriptor since it was opened. -/
def callsOf (fd : Int) (evs : List FdEv) : List SockCall := (sockAfter fd (evs.map .prog)).calls

/-- The settings an interface of a group should have, as calls; `a` is what the kernel answers for it. -/
def Wanted (m : Manager) (fc : Option (List Filter)) (num : Nat) (i : Iface) (a : OpenAns) : SockCall → Prop
  | .canFd => m.enable_can_fd = true
  | .receiveOwn => m.receive_own = true
  | .ifindex n => n = i.name
  | .bind x => x = a.ifindex
  | .timestamp | .rxqOvfl | .errFilter | .soError => True
  | .filters c => configureFilters i.fd fc num 0 = .ok (.Success, some c)
  | .send _ => False

/-- The kernel did as told. -/
def Accepted (a : OpenAns) : SockCall → Prop
  | .canFd => a.canfd = 0
  | .receiveOwn => a.own = 0
  | .ifindex _ => 0 ≤ a.ioctl
  | .bind _ => 0 ≤ a.bind
  | .timestamp => 0 ≤ a.timestamp
  | .rxqOvfl => 0 ≤ a.rxqOvfl
  | .errFilter => 0 ≤ a.errFilter
  | .soError => a.soError = 0
  | .filters _ => a.filter = 0
  | .send _ => True

end Uavcan.Spec
