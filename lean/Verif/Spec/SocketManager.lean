import Verif.Model.SocketManager

/-!
# Specification of the interface manager
-/

namespace Uavcan.Spec
open SocketCan

/-- Everything the system has to grant for an interface to be opened. -/
def CanOpen (m : Manager) (name : String) (a : OpenAns) : Prop :=
  0 ≤ a.socket ∧ (m.enable_can_fd = true → a.canfd = 0) ∧ (m.receive_own = true → a.own = 0) ∧
  name.utf8ByteSize < 16 ∧ 0 ≤ a.ioctl ∧ 0 ≤ a.ifindex ∧ 0 ≤ a.bind ∧ a.soError = 0 ∧ a.filter = 0 ∧ a.oom = false

instance (m : Manager) (name : String) (a : OpenAns) : Decidable (CanOpen m name a) := by unfold CanOpen; infer_instance

/-- The descriptors open after some events. -/
def openAfter (o : List Int) : List FdEv → List Int
  | [] => o
  | .opened fd :: t => openAfter (fd :: o) t
  | .closed fd :: t => openAfter (o.erase fd) t
  | .call _ _ :: t => openAfter o t

/-- What the kernel guarantees: it only hands out descriptors that are not open. -/
def Fresh (o : List Int) : List FdEv → Prop
  | [] => True
  | .opened fd :: t => fd ∉ o ∧ Fresh (fd :: o) t
  | .closed fd :: t => Fresh (o.erase fd) t
  | .call _ _ :: t => Fresh o t

/-- No descriptor is used or closed that is not open. -/
def NoBadClose (o : List Int) : List FdEv → Prop
  | [] => True
  | .opened fd :: t => NoBadClose (fd :: o) t
  | .closed fd :: t => fd ∈ o ∧ NoBadClose (o.erase fd) t
  | .call fd _ :: t => fd ∈ o ∧ NoBadClose o t

/-- The descriptors owned by the interfaces of a group. -/
def owned : Option Group → List Int
  | none => []
  | some g => g.interfaces.map Iface.fd

end Uavcan.Spec
