import Verif.Model.Suite

/-!
# Model of `test/native/test_util_math.cpp`

The typed tests of the saturating functions, for any implementation of them. A type parameter is a pair of number types of the same
width (79): both unsigned, both signed, or unsigned on the left and signed on the right (81–85).
-/

namespace Uavcan.MathTest
open Suite

/-- Signedness of the two types, 81–85. -/
inductive Kind where
  | unsigned
  | signed
  | mixed
  deriving DecidableEq, Repr

/-- `std::numeric_limits<LeftHandSideType>::is_signed` -/
def Kind.leftSigned : Kind → Bool
  | .signed => true
  | _ => false

/-- `std::numeric_limits<RightHandSideType>::is_signed` -/
def Kind.rightSigned : Kind → Bool
  | .unsigned => false
  | _ => true

/-- `std::numeric_limits<LeftHandSideType>::min()` -/
def lmin (k : Kind) (w : Nat) : Int := if k.leftSigned then intMin w else 0
/-- `std::numeric_limits<LeftHandSideType>::max()` -/
def lmax (k : Kind) (w : Nat) : Int := if k.leftSigned then intMax w else uintMax w
/-- `std::numeric_limits<RightHandSideType>::min()` -/
def rmin (k : Kind) (w : Nat) : Int := if k.rightSigned then intMin w else 0
/-- `std::numeric_limits<RightHandSideType>::max()` -/
def rmax (k : Kind) (w : Nat) : Int := if k.rightSigned then intMax w else uintMax w

/-- Conversion to an unsigned type; conversion to `bool` (`w = 1`) is different. -/
def toU (w : Nat) (x : Int) : Int := if w = 1 then (if x = 0 then 0 else 1) else castU w x
/-- Conversion to the left type (the initialisations and `static_cast`s of the tests). -/
def toL (k : Kind) (w : Nat) (x : Int) : Int := if k.leftSigned then castS w x else toU w x
/-- Conversion to the right type. -/
def toR (k : Kind) (w : Nat) (x : Int) : Int := if k.rightSigned then castS w x else toU w x

/-- The two functions for one pair of types. -/
structure Ops where
  add : Int → Int → Outcome Int
  sub : Int → Int → Outcome Int

/-- `libuavcan::util::saturating_add` and `saturating_sub`, math.hpp:76–245; the overload is chosen by signedness. -/
def libraryOps (abs : Nat → Int → Outcome Int) (k : Kind) (w : Nat) : Ops :=
  match k with
  | .unsigned => ⟨SatMath.addU w, SatMath.subU w⟩
  | .signed => ⟨SatMath.addS abs w, SatMath.subS abs w⟩
  | .mixed => ⟨SatMath.addM w, SatMath.subM w⟩

/-- `c = f(a, b); ASSERT_EQ(e, c);` -/
def expect (c : Outcome Int) (e : Int) : Check Unit := do
  let c ← OptionT.lift c
  ASSERT (e == c)

/-- `SaturatingAdd`, 104–110. -/
def saturatingAdd (o : Ops) (k : Kind) (w : Nat) : Check Unit := expect (o.add (lmax k w) 1) (lmax k w)
/-- `SaturatingSub`, 112–118. -/
def saturatingSub (o : Ops) (k : Kind) (w : Nat) : Check Unit := expect (o.sub (lmin k w) 1) (lmin k w)
/-- `NonSaturatingAdd`, 120–126. -/
def nonSaturatingAdd (o : Ops) (k : Kind) (w : Nat) : Check Unit :=
  let a := toL k w (lmax k w - 2)
  expect (o.add a 1) (toL k w (a + 1))
/-- `NonSaturatingSub`, 128–134. -/
def nonSaturatingSub (o : Ops) (k : Kind) (w : Nat) : Check Unit :=
  let a := toL k w (lmin k w + 2)
  expect (o.sub a 1) (toL k w (a - 1))
/-- `SaturatingAddMaxMax`, 137–143. -/
def saturatingAddMaxMax (o : Ops) (k : Kind) (w : Nat) : Check Unit := expect (o.add (lmax k w) (rmax k w)) (lmax k w)
/-- `SaturatingAddMinMax`, 145–164. -/
def saturatingAddMinMax (o : Ops) (k : Kind) (w : Nat) : Check Unit :=
  expect (o.add (lmin k w) (rmax k w))
    (if k.leftSigned then toL k w (-1) else if k.rightSigned then toL k w (rmax k w) else lmax k w)
/-- `SaturatingAddMinMin`, 166–172. -/
def saturatingAddMinMin (o : Ops) (k : Kind) (w : Nat) : Check Unit := expect (o.add (lmin k w) (rmin k w)) (lmin k w)
/-- `SaturatingAddMaxMin`, 174–193. -/
def saturatingAddMaxMin (o : Ops) (k : Kind) (w : Nat) : Check Unit :=
  expect (o.add (lmax k w) (rmin k w))
    (if k.leftSigned then toL k w (-1) else if k.rightSigned then lmax k w - (lmax k w / 2 + 1) else lmax k w)
/-- `SaturatingAddMaxMinPlusOne`, 195–215. -/
def saturatingAddMaxMinPlusOne (o : Ops) (k : Kind) (w : Nat) : Check Unit :=
  expect (o.add (lmax k w) (toR k w (rmin k w + 1)))
    (if k.leftSigned then 0 else if k.rightSigned then lmax k w - (lmax k w / 2 + 2) else lmax k w)
/-- `SaturatingAddMinPlusOneMin`, 217–234. -/
def saturatingAddMinPlusOneMin (o : Ops) (k : Kind) (w : Nat) : Check Unit :=
  expect (o.add (toL k w (lmin k w + 1)) (rmin k w))
    (if k.leftSigned then lmin k w else if k.rightSigned then 0 else lmin k w + 1)
/-- `SaturatingAddMaxToZero`, 236–244. -/
def saturatingAddMaxToZero (o : Ops) (k : Kind) (w : Nat) : Check Unit := expect (o.add 0 (rmax k w)) (toL k w (rmax k w))
/-- `SaturatingAddZeroToMax`, 246–252. -/
def saturatingAddZeroToMax (o : Ops) (k : Kind) (w : Nat) : Check Unit := expect (o.add (lmax k w) 0) (lmax k w)
/-- `SaturatingSubMaxMax`, 256–272. -/
def saturatingSubMaxMax (o : Ops) (k : Kind) (w : Nat) : Check Unit :=
  expect (o.sub (lmax k w) (rmax k w)) (if k.leftSigned == k.rightSigned then 0 else lmax k w - rmax k w)
/-- `SaturatingSubMinMax`, 274–280. -/
def saturatingSubMinMax (o : Ops) (k : Kind) (w : Nat) : Check Unit := expect (o.sub (lmin k w) (rmax k w)) (lmin k w)
/-- `SaturatingSubMinMin`, 282–298. -/
def saturatingSubMinMin (o : Ops) (k : Kind) (w : Nat) : Check Unit :=
  expect (o.sub (lmin k w) (rmin k w)) (if k.leftSigned == k.rightSigned then 0 else lmax k w / 2 + 1)
/-- `SaturatingSubMaxMin`, 300–306. -/
def saturatingSubMaxMin (o : Ops) (k : Kind) (w : Nat) : Check Unit := expect (o.sub (lmax k w) (rmin k w)) (lmax k w)
/-- `SaturatingSubMaxMinPlusOne`, 308–324. -/
def saturatingSubMaxMinPlusOne (o : Ops) (k : Kind) (w : Nat) : Check Unit :=
  expect (o.sub (lmax k w) (toR k w (rmin k w + 1))) (if k.rightSigned then lmax k w else lmax k w - 1)
/-- `SaturatingSubMinPlusOneMin`, 326–340. -/
def saturatingSubMinPlusOneMin (o : Ops) (k : Kind) (w : Nat) : Check Unit :=
  expect (o.sub (toL k w (lmin k w + 1)) (rmin k w)) (if k.rightSigned == k.leftSigned then 1 else lmax k w / 2 + 2)
/-- `SaturatingSubMaxFromZero`, 342–352. -/
def saturatingSubMaxFromZero (o : Ops) (k : Kind) (w : Nat) : Check Unit := do
  let c ← OptionT.lift (o.sub 0 (rmax k w))
  ASSERT (lmin k w ≤ c)
  expect (o.sub c (rmax k w)) (lmin k w)
/-- `SaturatingSubZeroFromMax`, 354–361. -/
def saturatingSubZeroFromMax (o : Ops) (k : Kind) (w : Nat) : Check Unit := do
  let c ← OptionT.lift (o.sub (lmax k w) 0)
  ASSERT (lmax k w ≤ c)

/-- All of them but `SaturatingAddMaxMinPlusOne` and `SaturatingSubMaxFromZero`, which need separate treatment. -/
def plainTests : List (Ops → Kind → Nat → Check Unit) :=
  [saturatingAdd, saturatingSub, nonSaturatingAdd, nonSaturatingSub, saturatingAddMaxMax, saturatingAddMinMax, saturatingAddMinMin,
   saturatingAddMaxMin, saturatingAddMinPlusOneMin, saturatingAddMaxToZero, saturatingAddZeroToMax, saturatingSubMaxMax,
   saturatingSubMinMax, saturatingSubMinMin, saturatingSubMaxMin, saturatingSubMaxMinPlusOne, saturatingSubMinPlusOneMin,
   saturatingSubZeroFromMax]

/-- `SaturatedMathTest`, 104–361. -/
def tests : List (Ops → Kind → Nat → Check Unit) := saturatingAddMaxMinPlusOne :: saturatingSubMaxFromZero :: plainTests

end Uavcan.MathTest
