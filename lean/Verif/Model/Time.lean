import Verif.Model.SatMath

/-!
# Model of `libuavcan/include/libuavcan/time.hpp`

`Duration` models `duration::Base` (lines 56–210) and `TimePoint` models `time::Base` (lines 236–373).
Both are generic in the microsecond type, hence in the width `w`; the concrete classes
`duration::Monotonic` (215) and `time::Monotonic` (378) use 64 bits (lines 30 and 35 of the header select
`int64_t` and `uint64_t`).

Simplification: object identity matters only for the assignment operators; they are modelled on a store
of objects in the second half of the file.
-/

namespace Uavcan.Time
open SatMath

/-- Width of the default microsecond types. -/
def defaultWidth : Nat := 64

/-- `duration::Base`, time.hpp:56–59: one signed number of microseconds. -/
structure Duration where
  usec : Int
  deriving DecidableEq, Repr

/-- `time::Base`, time.hpp:236–239: one unsigned number of microseconds. -/
structure TimePoint where
  usec : Int
  deriving DecidableEq, Repr

namespace Duration

/-- Default constructor, time.hpp:67–73. -/
def default : Duration := ⟨0⟩
/-- `fromMicrosecond`, time.hpp:111–116: default-construct, then assign. -/
def fromMicrosecond (us : Int) : Duration := { default with usec := us }
/-- `toMicrosecond`, time.hpp:121–124. -/
def toMicrosecond (d : Duration) : Int := d.usec
/-- `getMaximum`, time.hpp:103–106. -/
def getMaximum (w : Nat) : Duration := fromMicrosecond (intMax w)
/-- `getAbs`, time.hpp:129–132; `std::abs` is called in the promoted width. -/
def getAbs (abs : Nat → Int → Outcome Int) (w : Nat) (d : Duration) : Outcome Duration := do
  let a ← abs (promW w) d.usec
  return fromMicrosecond (castS w a)
/-- `operator==`, time.hpp:147–150. -/
def eq (l r : Duration) : Bool := l.usec == r.usec
/-- `operator!=`, time.hpp:152–155. -/
def ne (l r : Duration) : Bool := !eq l r
/-- `operator<`, time.hpp:157–160. -/
def lt (l r : Duration) : Bool := l.usec < r.usec
/-- `operator>`, time.hpp:162–165. -/
def gt (l r : Duration) : Bool := l.usec > r.usec
/-- `operator<=`, time.hpp:167–170. -/
def le (l r : Duration) : Bool := l.usec ≤ r.usec
/-- `operator>=`, time.hpp:172–175. -/
def ge (l r : Duration) : Bool := l.usec ≥ r.usec
/-- `operator+`, time.hpp:177–180. -/
def add (abs : Nat → Int → Outcome Int) (w : Nat) (l r : Duration) : Outcome Duration :=
  fromMicrosecond <$> addS abs w l.usec r.usec
/-- `operator-`, time.hpp:182–185. -/
def sub (abs : Nat → Int → Outcome Int) (w : Nat) (l r : Duration) : Outcome Duration :=
  fromMicrosecond <$> subS abs w l.usec r.usec
/-- Unary `operator-`, time.hpp:187–197. -/
def neg (w : Nat) (d : Duration) : Outcome Duration :=
  if d.usec = intMin w then
    .ok (fromMicrosecond (intMax w))
  else do
    let n ← signedResult w (-d.usec)
    return fromMicrosecond (castS w n)

end Duration

namespace TimePoint

/-- Default constructor, time.hpp:244–256. -/
def default : TimePoint := ⟨0⟩
/-- `fromMicrosecond`, time.hpp:294–299. -/
def fromMicrosecond (us : Int) : TimePoint := { default with usec := us }
/-- `toMicrosecond`, time.hpp:304–307. -/
def toMicrosecond (t : TimePoint) : Int := t.usec
/-- `getMaximum`, time.hpp:286–289. -/
def getMaximum (w : Nat) : TimePoint := fromMicrosecond (uintMax w)
/-- `operator==`, time.hpp:322–325. -/
def eq (l r : TimePoint) : Bool := l.usec == r.usec
/-- `operator!=`, time.hpp:327–330. -/
def ne (l r : TimePoint) : Bool := !eq l r
/-- `operator<`, time.hpp:332–335. -/
def lt (l r : TimePoint) : Bool := l.usec < r.usec
/-- `operator>`, time.hpp:337–340. -/
def gt (l r : TimePoint) : Bool := l.usec > r.usec
/-- `operator<=`, time.hpp:342–345. -/
def le (l r : TimePoint) : Bool := l.usec ≤ r.usec
/-- `operator>=`, time.hpp:347–350. -/
def ge (l r : TimePoint) : Bool := l.usec ≥ r.usec
/-- `operator+`, time.hpp:352–355. -/
def add (w : Nat) (t : TimePoint) (d : Duration) : Outcome TimePoint :=
  fromMicrosecond <$> addM w t.usec d.toMicrosecond
/-- `operator-`, time.hpp:357–360. -/
def sub (w : Nat) (t : TimePoint) (d : Duration) : Outcome TimePoint :=
  fromMicrosecond <$> subM w t.usec d.toMicrosecond

/-- A sequence of `t += d`, time.hpp:362–366. -/
def addAll (w : Nat) (t : TimePoint) : List Duration → Outcome TimePoint
  | [] => .ok t
  | d :: ds => do
    let t' ← t.add w d
    addAll w t' ds

/-- A sequence of `t -= d`, time.hpp:368–372. -/
def subAll (w : Nat) (t : TimePoint) : List Duration → Outcome TimePoint
  | [] => .ok t
  | d :: ds => do
    let t' ← t.sub w d
    subAll w t' ds

end TimePoint

/-! ## Objects in memory -/

/-- A store of duration objects; the number names the object. -/
abbrev Store := Nat → Int

/-- Write one object. -/
def Store.set (s : Store) (i : Nat) (v : Int) : Store := fun j => if j = i then v else s j

/-- Statements that act on duration objects. The same statements exist for time objects, whose
assignment operators are textually the same (time.hpp:258–270, 309–320). -/
inductive Stmt where
  /-- `Type d(s);` copy construction (time.hpp:75–77), also `d = s;` copy assignment (141–145) -/
  | copy (d s : Nat)
  /-- `d = std::move(s);` move assignment (134–139) -/
  | moveAssign (d s : Nat)
  /-- `Type d(std::move(s));` move construction (83–87) -/
  | moveConstruct (d s : Nat)
  /-- `d += s;` (199–203) -/
  | addAssign (d s : Nat)
  /-- `d -= s;` (205–209) -/
  | subAssign (d s : Nat)
  deriving Repr, DecidableEq

/-- Effect of one statement. `x op= y` is `*this = *this op r`: the temporary is computed, then
move-assigned (the reset of the temporary is not observable). -/
def Stmt.exec (abs : Nat → Int → Outcome Int) (w : Nat) (st : Store) : Stmt → Outcome Store
  | .copy d s => .ok (st.set d (st s))
  | .moveAssign d s =>
    let st := st.set d (st s)       -- 136
    .ok (st.set s 0)                -- 137
  | .moveConstruct d s =>
    let st := st.set d (st s)       -- 84
    .ok (st.set s 0)                -- 86
  | .addAssign d s => do
    let tmp ← Duration.add abs w ⟨st d⟩ ⟨st s⟩   -- 201
    return st.set d tmp.usec
  | .subAssign d s => do
    let tmp ← Duration.sub abs w ⟨st d⟩ ⟨st s⟩   -- 207
    return st.set d tmp.usec

/-- A program: statements in sequence. -/
def exec (abs : Nat → Int → Outcome Int) (w : Nat) (st : Store) : List Stmt → Outcome Store
  | [] => .ok st
  | c :: cs => do
    let st' ← c.exec abs w st
    exec abs w st' cs

end Uavcan.Time
