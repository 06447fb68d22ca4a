import Verif.Core.CInt

/-!
# Model of `libuavcan/include/libuavcan/util/math.hpp`

Each function takes the width `w` of its template type. `std::abs` is the parameter `abs`, so that both
the standard's reading (`strictAbs`) and wrapping hardware (`wrapAbs`) can be studied; its argument says
in which width it is called (the promoted one).

Simplification: the functions are total functions of their arguments in C++ as well, so there is no
state. `constexpr` is ignored.
-/

namespace Uavcan.SatMath

/-- `_saturating_add_d`, math.hpp:38–43. -/
def addD (w : Nat) (left right : Int) : Outcome Int := do
  if left ≥ 0 then
    let room ← signedResult w (intMax w - left)
    if right > room then
      return intMax w
  let sum ← signedResult w (left + right)
  return castS w sum

/-- `_saturating_sub_d`, math.hpp:54–59. -/
def subD (abs : Nat → Int → Outcome Int) (w : Nat) (left right : Int) : Outcome Int := do
  if left ≤ 0 then
    let diff ← signedResult w (intMin w - left)
    let room ← abs (promW w) diff
    if right ≥ room then
      return intMin w
  let diff ← signedResult w (left - right)
  return castS w diff

/-- Signed `saturating_add`, math.hpp:76–104. -/
def addS (abs : Nat → Int → Outcome Int) (w : Nat) (left right : Int) : Outcome Int := do
  if right ≥ 0 then                                   -- 79
    addD w left right                                 -- 81
  else if right = intMin w then                       -- 83
    let result ← subD abs w left (intMax w)           -- 90
    if result > intMin w then                         -- 91
      let r ← signedResult w (result - 1)             -- 93
      return castS w r
    return result
  else
    let neg ← signedResult w (-right)                 -- 101
    subD abs w left (castS w neg)

/-- Signed `saturating_sub`, math.hpp:121–147. -/
def subS (abs : Nat → Int → Outcome Int) (w : Nat) (left right : Int) : Outcome Int := do
  if right ≥ 0 then                                   -- 124
    subD abs w left right                             -- 126
  else if right = intMin w then                       -- 128
    let result ← addD w left (intMax w)               -- 133
    if result < intMax w then                         -- 134
      let r ← signedResult w (result + 1)             -- 136
      return castS w r
    return result
  else
    let neg ← signedResult w (-right)                 -- 144
    addD w left (castS w neg)

/-- Unsigned `saturating_add`, math.hpp:164–173. For `bool` (`w = 1`) the conversions to the type are
applied to 0 and 1 only, where `castU 1` and conversion to `bool` agree. -/
def addU (w : Nat) (left right : Int) : Outcome Int := do
  let room ← unsignedResult w (uintMax w - left)      -- 170
  if right > castU w room then
    return uintMax w                                  -- 171
  let sum ← unsignedResult w (left + right)           -- 172
  return castU w sum

/-- Unsigned `saturating_sub`, math.hpp:190–193. -/
def subU (w : Nat) (left right : Int) : Outcome Int := do
  if right > left then
    return 0
  let diff ← unsignedResult w (left - right)
  return castU w diff

/-- Unsigned minus signed `saturating_sub`, math.hpp:215–219. `w` is the width of the unsigned left
operand; the width of the signed right operand plays no role beyond the range of `right`. -/
def subM (w : Nat) (left right : Int) : Outcome Int :=
  if right ≥ 0 then subU w left (convU w right) else addU w left (convU w right)

/-- Unsigned plus signed `saturating_add`, math.hpp:241–245. -/
def addM (w : Nat) (left right : Int) : Outcome Int :=
  if right ≥ 0 then addU w left (convU w right) else subU w left (convU w right)

end Uavcan.SatMath
