import Verif.Spec.SocketCtl

/-!
# Specification: control data

What the bytes of a control buffer mean: the layout of control messages is that of `cmsg(3)` on x86-64, independent of who
wrote them. Nothing of this is in the repository.
-/

namespace Uavcan.Spec
open SocketCan Can

/-- A control message. -/
structure CtlMsg where
  level : Nat
  type : Nat
  data : List Byte

/-- The bytes of a control message: length with header, level, type, data. -/
def CtlMsg.bytes (m : CtlMsg) : List Byte :=
  leBytes 8 (16 + m.data.length) ++ leBytes 4 m.level ++ leBytes 4 m.type ++ m.data

/-- Level and type are 32 bit numbers. -/
def CtlMsg.Ok (m : CtlMsg) : Prop := m.level < 2 ^ 32 ∧ m.type < 2 ^ 32

/-- Control data holds control messages: each one is padded to a multiple of 8 bytes, the last one may lack its padding, and
fewer than 16 bytes are no message. -/
inductive CtlData : List Byte → List CtlMsg → Prop
  | none (bs : List Byte) : bs.length < 16 → CtlData bs []
  | more (m : CtlMsg) (pad rest : List Byte) (ms : List CtlMsg) : m.Ok → pad.length < 8 →
      (m.data.length + pad.length) % 8 = 0 → CtlData rest ms → CtlData (m.bytes ++ pad ++ rest) (m :: ms)
  | last (m : CtlMsg) (pad : List Byte) : m.Ok → pad.length < (8 - m.data.length % 8) % 8 →
      CtlData (m.bytes ++ pad) [m]

/-- A time stamp (`SOL_SOCKET` is 1, `SO_TIMESTAMP` is 29). -/
def CtlMsg.IsStamp (m : CtlMsg) : Prop := m.level = 1 ∧ m.type = 29

/-- A drop count (`SO_RXQ_OVFL` is 40). -/
def CtlMsg.IsDrops (m : CtlMsg) : Prop := m.level = 1 ∧ m.type = 40

instance (m : CtlMsg) : Decidable m.IsStamp := inferInstanceAs (Decidable (_ ∧ _))
instance (m : CtlMsg) : Decidable m.IsDrops := inferInstanceAs (Decidable (_ ∧ _))

/-- A time stamp has seconds and microseconds of 8 bytes each, a drop count has 4 bytes. -/
def CtlMsg.Whole (m : CtlMsg) : Prop := (m.IsStamp → 16 ≤ m.data.length) ∧ (m.IsDrops → 4 ≤ m.data.length)

instance (m : CtlMsg) : Decidable m.Whole := inferInstanceAs (Decidable (_ ∧ _))

/-- The time in microseconds, if the message has one. -/
def CtlMsg.micros? (m : CtlMsg) : Option Nat :=
  if m.IsStamp ∧ 16 ≤ m.data.length then
    some (leNat (m.data.take 8) * 1000000 + leNat ((m.data.drop 8).take 8))
  else none

/-- The number of frames dropped, if the message has one. -/
def CtlMsg.drops? (m : CtlMsg) : Option Nat :=
  if m.IsDrops ∧ 4 ≤ m.data.length then some (leNat (m.data.take 4)) else none

/-- The time the control messages give: that of the last time stamp, 0 if there is none. -/
def ctlMicros (ms : List CtlMsg) : Nat := (ms.filterMap CtlMsg.micros?).getLastD 0

/-- The sum of the drop counts. -/
def ctlDrops (ms : List CtlMsg) : Nat := (ms.filterMap CtlMsg.drops?).sum

/-- The 32 bytes hold an empty control message, and behind it a header which says time stamp or drop count, but no data. -/
def EmptyThenHeader (bs : List Byte) : Prop :=
  bs.length = 32 ∧ leNat (bs.take 8) = 16 ∧ leNat ((bs.drop 24).take 4) = 1 ∧
  (leNat ((bs.drop 28).take 4) = 29 ∨ (leNat ((bs.drop 28).take 4) = 40 ∧ 4 ≤ leNat ((bs.drop 16).take 8)))

end Uavcan.Spec
