import Verif.Model.TimeTest
import Verif.Spec.Clamp

/-!
# Specification: right classes for durations and times
-/

namespace Uavcan.Spec
open TimeTest

/-- Objects hold the numbers from `lo` to `hi`; copies are equal to their source; what is moved leaves 0 behind; comparisons compare the numbers. -/
structure RightValues {σ : Type} (c : Values σ) (lo hi : Int) : Prop where
  range : ∀ a, lo ≤ c.toMicrosecond a ∧ c.toMicrosecond a ≤ hi
  dflt : c.toMicrosecond c.dflt = 0
  round_trip : ∀ v, lo ≤ v → v ≤ hi → c.toMicrosecond (c.fromMicrosecond v) = v
  copyConstruct : ∀ a, c.toMicrosecond (c.copyConstruct a).1 = c.toMicrosecond a ∧ c.toMicrosecond (c.copyConstruct a).2 = c.toMicrosecond a
  copyAssign : ∀ a b, c.toMicrosecond (c.copyAssign a b).1 = c.toMicrosecond b ∧ c.toMicrosecond (c.copyAssign a b).2 = c.toMicrosecond b
  moveConstruct : ∀ a, c.toMicrosecond (c.moveConstruct a).1 = c.toMicrosecond a ∧ c.toMicrosecond (c.moveConstruct a).2 = 0
  moveAssign : ∀ a b, c.toMicrosecond (c.moveAssign a b).1 = c.toMicrosecond b ∧ c.toMicrosecond (c.moveAssign a b).2 = 0
  eq : ∀ a b, c.eq a b = true ↔ c.toMicrosecond a = c.toMicrosecond b
  ne : ∀ a b, c.ne a b = true ↔ c.toMicrosecond a ≠ c.toMicrosecond b
  lt : ∀ a b, c.lt a b = true ↔ c.toMicrosecond a < c.toMicrosecond b
  gt : ∀ a b, c.gt a b = true ↔ c.toMicrosecond a > c.toMicrosecond b
  le : ∀ a b, c.le a b = true ↔ c.toMicrosecond a ≤ c.toMicrosecond b
  ge : ∀ a b, c.ge a b = true ↔ c.toMicrosecond a ≥ c.toMicrosecond b
  getMaximum : c.toMicrosecond c.getMaximum = hi

/-- Saturating arithmetic on signed numbers of `w` bits. -/
structure RightDuration {δ : Type} (d : DurationClass δ) (w : Nat) : Prop where
  values : RightValues d.toValues (-(2 ^ (w - 1))) (2 ^ (w - 1) - 1)
  add : ∀ a b, d.toMicrosecond (d.add a b) = signedClamp w (d.toMicrosecond a + d.toMicrosecond b)
  sub : ∀ a b, d.toMicrosecond (d.sub a b) = signedClamp w (d.toMicrosecond a - d.toMicrosecond b)
  addAssign : ∀ a b, d.toMicrosecond (d.addAssign a b) = signedClamp w (d.toMicrosecond a + d.toMicrosecond b)
  subAssign : ∀ a b, d.toMicrosecond (d.subAssign a b) = signedClamp w (d.toMicrosecond a - d.toMicrosecond b)
  neg : ∀ a, d.toMicrosecond (d.neg a) = signedClamp w (-d.toMicrosecond a)
  getAbs : ∀ a, d.toMicrosecond (d.getAbs a) = signedClamp w (max (d.toMicrosecond a) (-d.toMicrosecond a))

/-- Saturating arithmetic on unsigned numbers of `w` bits, plus and minus durations. -/
structure RightTime {δ τ : Type} (d : DurationClass δ) (t : TimeClass δ τ) (w : Nat) : Prop where
  values : RightValues t.toValues 0 (2 ^ w - 1)
  add : ∀ a b, t.toMicrosecond (t.add a b) = unsignedClamp w (t.toMicrosecond a + d.toMicrosecond b)
  sub : ∀ a b, t.toMicrosecond (t.sub a b) = unsignedClamp w (t.toMicrosecond a - d.toMicrosecond b)
  addAssign : ∀ a b, t.toMicrosecond (t.addAssign a b) = unsignedClamp w (t.toMicrosecond a + d.toMicrosecond b)
  subAssign : ∀ a b, t.toMicrosecond (t.subAssign a b) = unsignedClamp w (t.toMicrosecond a - d.toMicrosecond b)

end Uavcan.Spec
