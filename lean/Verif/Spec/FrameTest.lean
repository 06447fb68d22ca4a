import Verif.Model.FrameTest
import Verif.Spec.CanFd

/-!
# Specification: right classes for CAN frames
-/

namespace Uavcan.Spec
open FrameTest

/-- The number of bytes a data length code stands for, ISO 11898-1; 0 for what is not a code. -/
def codeLength (k : Nat) : Nat :=
  if k ≤ 8 then k else
  match k with
  | 9 => 12
  | 10 => 16
  | 11 => 20
  | 12 => 24
  | 13 => 32
  | 14 => 48
  | 15 => 64
  | _ => 0

/-- The frame has this identifier, code, timestamp, and these data. -/
def Holds {σ : Type} {mtu : Nat} (c : FrameClass σ mtu) (f : σ) (id k t : Nat) (data : List (BitVec 8)) : Prop :=
  c.id f = id ∧ c.getDLC f = k ∧ c.timestamp f = t ∧ ∀ i (_ : i < codeLength k) (h : i < data.length), c.byte f i = data[i]

/-- Objects hold an identifier, a code, data and a time, as constructed; the length is that of the code. -/
structure RightStorage {σ : Type} {mtu : Nat} (c : FrameClass σ mtu) : Prop where
  dflt : Holds c c.dflt 0 0 0 [] ∧ ∀ i, i < mtu → c.byte c.dflt i = 0
  ofData : ∀ id data k, id < 2 ^ 32 → k < 16 → codeLength k ≤ mtu → codeLength k ≤ data.length → Holds c (c.ofData id (some data) k) id k 0 data
  ofDataAt : ∀ id data k t, id < 2 ^ 32 → k < 16 → codeLength k ≤ mtu → codeLength k ≤ data.length → Holds c (c.ofDataAt id (some data) k t) id k t data
  ofNull : ∀ id k, id < 2 ^ 32 → Holds c (c.ofData id none k) id 0 0 []
  ofNullAt : ∀ id k t, id < 2 ^ 32 → Holds c (c.ofDataAt id none k t) id 0 t []
  getDataLength : ∀ f, c.getDataLength f = codeLength (c.getDLC f)

/-- Besides, a length that is set is rounded up to one a frame can have, and is at most the MTU; priority is that of the bus; frames are equal if identifier, length and data are. -/
structure RightFrame {σ : Type} {mtu : Nat} (c : FrameClass σ mtu) : Prop extends RightStorage c where
  setDataLength : ∀ f n, IsLeastAtLeast FdLength (min n mtu) (c.getDataLength (c.setDataLength f n))
  setDataLength_keeps : ∀ f n, c.id (c.setDataLength f n) = c.id f ∧ c.timestamp (c.setDataLength f n) = c.timestamp f ∧ ∀ i, i < mtu → c.byte (c.setDataLength f n) i = c.byte f i
  dlcToLength : ∀ k, c.dlcToLength k = codeLength k
  priorityHigherThan : ∀ a b, c.priorityHigherThan a b = true ↔ c.id a % 2 ^ 29 < c.id b % 2 ^ 29
  gt : ∀ a b, c.gt a b = true ↔ c.id a % 2 ^ 29 < c.id b % 2 ^ 29
  priorityLowerThan : ∀ a b, c.priorityLowerThan a b = true ↔ c.id b % 2 ^ 29 < c.id a % 2 ^ 29
  lt : ∀ a b, c.lt a b = true ↔ c.id b % 2 ^ 29 < c.id a % 2 ^ 29
  eq : ∀ a b, c.eq a b = true ↔ c.id a % 2 ^ 29 = c.id b % 2 ^ 29 ∧ c.getDLC a = c.getDLC b ∧ ∀ i, i < c.getDataLength a → c.byte a i = c.byte b i
  ne : ∀ a b, c.ne a b = true ↔ ¬ (c.id a % 2 ^ 29 = c.id b % 2 ^ 29 ∧ c.getDLC a = c.getDLC b ∧ ∀ i, i < c.getDataLength a → c.byte a i = c.byte b i)

end Uavcan.Spec
