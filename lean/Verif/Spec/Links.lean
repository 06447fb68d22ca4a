import Verif.Spec.Stream

/-!
# Specification: redundant buses between two applications

One application sends the same frames through every interface of its group, each at its own pace (`Spec/Stream`, for each interface). Another reads from every interface of its own
group and passes on what it has not passed on yet. Interface `k` of the one and interface `k` of the other are on bus `k`; each has its own socket. A bus can be cut: what was on its
way is lost, and whatever is written from then on. Neither application is in the repository; they stand for every use of a group of this kind.
-/

namespace Uavcan.Spec
open SocketCan Can

/-- A function with one value changed. -/
def put {α : Type} (f : Nat → α) (k : Nat) (a : α) : Nat → α := fun j => if j = k then a else f j

/-- What the two applications and the buses between them are at. -/
structure Links where
  /-- the sender's group -/
  tx : Group
  /-- the receiver's group -/
  rx : Group
  /-- frames still to be written to an interface -/
  pending : Nat → List FrameT
  /-- the receiver's sockets -/
  sock : Nat → RxSock
  /-- frames read from an interface -/
  got : Nat → List FrameT
  /-- whether a bus is cut -/
  cut : Nat → Bool
  /-- frames that the receiver has passed on -/
  merged : List FrameT

/-- The receiver counts. The first `merged.length` frames from an interface have been passed on already. -/
def passOn (merged got : List FrameT) : List FrameT := merged ++ got.drop merged.length

/-- One step. -/
inductive Links.Step (bus : CanfdFrame → RxMsg → Prop) : Links → Links → Prop where
  /-- The sender calls `write` for an interface, with an array whose first elements are the next frames for it; the kernel takes some of them. -/
  | write {c : Links} (k : Nat) (arr : Vector FrameT FramesLen) (before : Nat) (ans : SysAns) (o : Group.WriteOut) (ms : List RxMsg) :
      k < c.tx.interfaces.length → c.pending k ≠ [] → (∀ i, i < 4 → i < (c.pending k).length → arr[i]? = (c.pending k)[i]?) →
      ValidSend (min 4 (c.pending k).length) ans → c.tx.write k arr (min 4 (c.pending k).length) before ans = .ok o →
      (c.cut k = false → Paired bus (o.submitted.take (queued ans)) ms) → (c.cut k = true → ms = []) →
      Step bus c { c with tx := o.group, pending := put c.pending k ((c.pending k).drop o.written), sock := put c.sock k { c.sock k with queue := (c.sock k).queue ++ ms } }
  /-- A bus is cut; of the frames on their way the first ones arrive. -/
  | cut {c : Links} (k arrive : Nat) :
      Step bus c { c with cut := put c.cut k true, sock := put c.sock k { c.sock k with queue := (c.sock k).queue.take arrive } }
  /-- A socket of the receiver has an error. -/
  | fail {c : Links} (k : Nat) (e : Int) : e ≠ 11 → Step bus c { c with sock := put c.sock k { c.sock k with err := some e } }
  /-- The receiver calls `read` for an interface, and passes on what is new. -/
  | read {c : Links} (k : Nat) (out : Vector FrameT FramesLen) (before : Nat) (ans : RecvAns) (sock : RxSock) (o : Group.ReadOut) :
      k < c.rx.interfaces.length → (c.sock k).answer = some (ans, sock) → c.rx.read k out before ans = .ok o →
      Step bus c { c with rx := o.group, sock := put c.sock k sock, got := put c.got k (c.got k ++ o.out_frames.toList.take o.read),
                          merged := passOn c.merged (c.got k ++ o.out_frames.toList.take o.read) }

/-- Any number of steps. -/
inductive Links.Reaches (bus : CanfdFrame → RxMsg → Prop) : Links → Links → Prop where
  | refl (c : Links) : Reaches bus c c
  | snoc {a b c : Links} : Reaches bus a b → Links.Step bus b c → Reaches bus a c

/-- Nothing has been sent yet. -/
def Links.start (tx rx : Group) (fs : List FrameT) : Links :=
  { tx, rx, pending := fun _ => fs, sock := fun _ => ⟨[], none⟩, got := fun _ => [], cut := fun _ => false, merged := [] }

end Uavcan.Spec
