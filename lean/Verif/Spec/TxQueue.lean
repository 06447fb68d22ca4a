import Verif.Spec.Arbitration

/-!
# Specification: frames that wait to be sent

Containers of the C++ standard library that applications keep frames in, as far as the standard says what they do: `std::priority_queue<Frame>` ([priority.queue]: `top` is an
element that none is greater than), `std::multiset<Frame, std::greater<Frame>>` and `std::set<Frame, std::greater<Frame>>` ([associative.reqmts]: sorted; an element
equivalent to others goes to the end of their range, or is not inserted). The queue an application wants: what the bus would take, and first come, first served. Nothing
of this is in the repository; what is compared with are the operators of `Frame`.
-/

namespace Uavcan.Spec
open Can

/-- What an application does with a queue. Nothing is taken from an empty one. -/
inductive QOp (mtu : Nat) where
  | push (f : Frame mtu)
  | pop

/-- The frames an application queues. -/
def pushed {mtu : Nat} (ops : List (QOp mtu)) : List (Frame mtu) :=
  ops.filterMap fun | .push f => some f | .pop => none

/-- The frames sent by the queue that is wanted, and those left: the next is the one that came first of those that would win arbitration. With `once`, a
frame is not queued if one with the same identifier waits. -/
def wanted {mtu : Nat} (once : Bool) : List (QOp mtu) → List (Frame mtu) → List (Frame mtu) × List (Frame mtu)
  | [], q => ([], q)
  | .push f :: ops, q => wanted once ops (if once && q.any (fun g => g.id.setWidth 29 == f.id.setWidth 29) then q else q ++ [f])
  | .pop :: ops, q =>
    match (winners q).head? with
    | none => wanted once ops q
    | some f => (f :: (wanted once ops (q.erase f)).1, (wanted once ops (q.erase f)).2)

/-- The containers. -/
inductive Kind where
  | priorityQueue
  | multiset
  | set

/-- Insertion before the first element that the new one is to precede. -/
def insertUpper {mtu : Nat} (f : Frame mtu) : List (Frame mtu) → List (Frame mtu)
  | [] => [f]
  | g :: l => if f.gt g then f :: g :: l else g :: insertUpper f l

/-- Insertion of an element. -/
def Kind.insert {mtu : Nat} (f : Frame mtu) (l : List (Frame mtu)) : Kind → List (Frame mtu)
  | .priorityQueue => f :: l
  | .multiset => insertUpper f l
  | .set => if l.any (fun g => !f.gt g && !g.gt f) then l else insertUpper f l

/-- `top` and `pop`, or `*begin()` and `erase(begin())`: the element taken and what is left. -/
def Kind.takes {mtu : Nat} (l : List (Frame mtu)) (f : Frame mtu) (rest : List (Frame mtu)) : Kind → Prop
  | .priorityQueue => l.Perm (f :: rest) ∧ ∀ g ∈ rest, f.lt g = false
  | _ => l = f :: rest

/-- What an application may see: the frames it took in order, and what is left. -/
inductive QRun {mtu : Nat} (k : Kind) : List (QOp mtu) → List (Frame mtu) → List (Frame mtu) → List (Frame mtu) → Prop where
  | done (l : List (Frame mtu)) : QRun k [] l [] l
  | push {f : Frame mtu} {ops : List (QOp mtu)} {l out left : List (Frame mtu)} : QRun k ops (k.insert f l) out left → QRun k (.push f :: ops) l out left
  | pop {f : Frame mtu} {ops : List (QOp mtu)} {l rest out left : List (Frame mtu)} : k.takes l f rest → QRun k ops rest out left →
      QRun k (.pop :: ops) l (f :: out) left
  | empty {ops : List (QOp mtu)} {out left : List (Frame mtu)} : QRun k ops [] out left → QRun k (.pop :: ops) [] out left

end Uavcan.Spec
