import Verif.Model.Suite

/-!
# Model of the tests for durations and times, for any classes

`libuavcan_validation_suite/include/lvs/time.hpp` (in this file "time.hpp"): typed tests for classes that users write, see 12–36 there. `Model/Suite` has these tests for the classes of the
library; here they are for any. A class is what its member functions do.

Simplifications: member functions are total functions (undefined behaviour in a class under test is not modelled); an object that is initialised with the result of `fromMicrosecond` is that
result (no copy); the two microsecond types have the same width `w`, that of durations being signed and that of times unsigned, as time.hpp of the library demands.
-/

namespace Uavcan.TimeTest

/-- What durations and times have in common, with objects of type `σ`. Functions that assign or construct return the target and the source as they are afterwards. time.hpp 67–153. -/
structure Values (σ : Type) where
  dflt : σ
  fromMicrosecond : Int → σ
  toMicrosecond : σ → Int
  copyConstruct : σ → σ × σ
  copyAssign : σ → σ → σ × σ
  moveConstruct : σ → σ × σ
  moveAssign : σ → σ → σ × σ
  eq : σ → σ → Bool
  ne : σ → σ → Bool
  lt : σ → σ → Bool
  gt : σ → σ → Bool
  le : σ → σ → Bool
  ge : σ → σ → Bool
  getMaximum : σ

/-- A duration class; what time.hpp 224–265 uses of it besides. Compound assignments return the left operand as it is afterwards. -/
structure DurationClass (δ : Type) extends Values δ where
  add : δ → δ → δ
  sub : δ → δ → δ
  addAssign : δ → δ → δ
  subAssign : δ → δ → δ
  neg : δ → δ
  getAbs : δ → δ

/-- A time class for a duration class, time.hpp 129–144, 335–347. -/
structure TimeClass (δ τ : Type) extends Values τ where
  add : τ → δ → τ
  sub : τ → δ → τ
  addAssign : τ → δ → τ
  subAssign : τ → δ → τ

/-- `DefaultOperations`, time.hpp 67–102, the same text at 184–219 and 295–330. -/
def defaultOperations {σ : Type} (c : Values σ) : Bool :=
  let a := c.dflt
  c.toMicrosecond a == 0 &&                                                     -- 75
  let (a, assignFrom) := c.copyAssign a (c.fromMicrosecond 2)                   -- 78–79
  c.toMicrosecond a == 2 && c.toMicrosecond assignFrom == 2 &&                  -- 80–81
  let (copied, a) := c.copyConstruct a                                          -- 84
  c.toMicrosecond copied == 2 &&                                                -- 85
  let (moved, a) := c.moveConstruct a                                           -- 88
  c.toMicrosecond moved == 2 && c.toMicrosecond a == 0 &&                       -- 89–90
  let (a, move_from) := c.moveAssign a (c.fromMicrosecond 2)                    -- 93–94
  c.toMicrosecond a == 2 && c.toMicrosecond move_from == 0 &&                   -- 95–96
  c.toMicrosecond c.dflt == 0                                                   -- 99–100

/-- `ComparisonOperators`, time.hpp 107–116. -/
def comparisonOperators {σ : Type} (c : Values σ) : Bool :=
  c.eq c.dflt c.dflt && !c.ne c.dflt c.dflt && !c.lt c.dflt c.dflt && !c.gt c.dflt c.dflt && c.le c.dflt c.dflt && c.ge c.dflt c.dflt

/-- `Concept_fromMicrosecond`, time.hpp 121–124. -/
def conceptFromMicrosecond {σ : Type} (c : Values σ) : Bool := c.toMicrosecond (c.fromMicrosecond 100) == 100

/-- `SaturatedAdd`, time.hpp 129–134; `hi` is the greatest value of the microsecond type, `add` the operator, `one` a duration of 1. -/
def saturatedAdd {σ δ : Type} (c : Values σ) (hi : Int) (add : σ → δ → σ) (one : δ) : Bool :=
  c.toMicrosecond (add (c.fromMicrosecond hi) one) == hi

/-- `SaturatedSubtract`, time.hpp 139–144; `lo` is the least value. -/
def saturatedSubtract {σ δ : Type} (c : Values σ) (lo : Int) (sub : σ → δ → σ) (one : δ) : Bool :=
  c.toMicrosecond (sub (c.fromMicrosecond lo) one) == lo

/-- `GetMaximum`, time.hpp 149–153. -/
def getMaximum {σ : Type} (c : Values σ) (hi : Int) : Bool := c.eq (c.fromMicrosecond hi) c.getMaximum

/-- `AbsoluteValue`, time.hpp 224–231. -/
def absoluteValue {δ : Type} (d : DurationClass δ) : Bool :=
  let a := d.fromMicrosecond (-1)
  d.toMicrosecond (d.getAbs a) == 1 &&
  let (a, _) := d.moveAssign a (d.fromMicrosecond 1)
  d.toMicrosecond (d.getAbs a) == 1

/-- `ArithmeticOperators` for durations, time.hpp 236–265; `intMin w` and `intMax w` are the limits of the microsecond type. -/
def durationArithmetic {δ : Type} (d : DurationClass δ) (w : Nat) : Bool :=
  let lhs := d.addAssign (d.fromMicrosecond 1) (d.fromMicrosecond 1)
  d.eq (d.fromMicrosecond 2) lhs &&                                             -- 240
  let lhs := d.addAssign lhs d.getMaximum
  d.eq d.getMaximum lhs &&                                                      -- 242
  let lhs := d.subAssign lhs (d.fromMicrosecond 10)
  d.eq (d.sub d.getMaximum (d.fromMicrosecond 10)) lhs &&                       -- 244
  d.eq (d.fromMicrosecond (-1)) (d.neg (d.fromMicrosecond 1)) &&                -- 245
  d.eq (d.fromMicrosecond (intMin w + 1)) (d.neg d.getMaximum) &&               -- 248–249
  d.eq (d.fromMicrosecond (intMin w + 2)) (d.neg (d.sub d.getMaximum (d.fromMicrosecond 1))) && -- 251–252
  d.eq (d.fromMicrosecond (intMax w)) (d.neg (d.fromMicrosecond (intMin w))) && -- 257–258
  d.eq (d.fromMicrosecond (intMax w)) (d.neg (d.fromMicrosecond (intMin w + 1))) && -- 260–261
  d.eq (d.fromMicrosecond (intMax w - 1)) (d.neg (d.fromMicrosecond (intMin w + 2))) -- 263–264

/-- `ArithmeticOperators` for times, time.hpp 335–347. -/
def timeArithmetic {δ τ : Type} (d : DurationClass δ) (t : TimeClass δ τ) (w : Nat) : Bool :=
  t.eq (t.fromMicrosecond 2) (t.addAssign (t.fromMicrosecond 1) (d.fromMicrosecond 1)) && -- 337–338
  let sum := t.addAssign (t.fromMicrosecond 0) d.getMaximum                     -- 340
  d.eq d.getMaximum (d.fromMicrosecond (castS w (t.toMicrosecond sum))) &&      -- 341–343
  t.eq t.getMaximum (t.addAssign t.getMaximum d.getMaximum) &&                  -- 344
  t.eq (t.fromMicrosecond 0) (t.subAssign (t.fromMicrosecond 1) (d.fromMicrosecond 1)) -- 345–346

/-- All tests pass for a duration class: time.hpp 155–161, 269–272. -/
def durationPasses {δ : Type} (d : DurationClass δ) (w : Nat) : Bool :=
  comparisonOperators d.toValues && defaultOperations d.toValues && conceptFromMicrosecond d.toValues &&
  saturatedAdd d.toValues (intMax w) d.add (d.fromMicrosecond 1) && getMaximum d.toValues (intMax w) &&
  saturatedSubtract d.toValues (intMin w) d.sub (d.fromMicrosecond 1) && absoluteValue d && durationArithmetic d w

/-- All tests pass for a time class: time.hpp 155–161, 349–351. -/
def timePasses {δ τ : Type} (d : DurationClass δ) (t : TimeClass δ τ) (w : Nat) : Bool :=
  comparisonOperators t.toValues && defaultOperations t.toValues && conceptFromMicrosecond t.toValues &&
  saturatedAdd t.toValues (uintMax w) t.add (d.fromMicrosecond 1) && getMaximum t.toValues (uintMax w) &&
  saturatedSubtract t.toValues 0 t.sub (d.fromMicrosecond 1) && timeArithmetic d t w

end Uavcan.TimeTest
