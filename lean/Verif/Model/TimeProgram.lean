import Verif.Model.Time

/-!
# Model of programs over objects of `libuavcan/include/libuavcan/time.hpp`

`Model/Time.lean` has the statements that act on durations alone. Here are all statements on duration and time objects: how they are
made, copied, moved and computed. Comparisons change nothing, so they are not statements.

Simplification: a temporary is computed and then move-assigned; that it is reset to 0 (time.hpp:137, 312) is not observable.
-/

namespace Uavcan.Time

/-- The duration objects and the time objects; a number names an object of its kind. -/
structure Objs where
  dur : Store
  time : Store

/-- Statements on duration and time objects. -/
inductive TStmt where
  /-- copies, moves, `+=` and `-=` of durations (time.hpp:75–87, 134–145, 199–209) -/
  | dur (c : Stmt)
  /-- `d = Duration::fromMicrosecond(us)` (111–116) -/
  | durMake (d : Nat) (us : Int)
  /-- `d = Duration::getMaximum()` (103–106) -/
  | durMax (d : Nat)
  /-- `d = a + b` (177–180) -/
  | durAdd (d a b : Nat)
  /-- `d = a - b` (182–185) -/
  | durSub (d a b : Nat)
  /-- `d = -a` (187–197) -/
  | durNeg (d a : Nat)
  /-- `d = a.getAbs()` (129–132) -/
  | durAbs (d a : Nat)
  /-- `Time t(s);` (258–260), also `t = s;` (316–320) -/
  | timeCopy (t s : Nat)
  /-- `t = std::move(s);` (309–314), also `Time t(std::move(s));` (266–270) -/
  | timeMove (t s : Nat)
  /-- `t = Time::fromMicrosecond(us)` (294–299) -/
  | timeMake (t : Nat) (us : Int)
  /-- `t = Time::getMaximum()` (286–289) -/
  | timeMax (t : Nat)
  /-- `t = s + d` (352–355) -/
  | timeAdd (t s d : Nat)
  /-- `t = s - d` (357–360) -/
  | timeSub (t s d : Nat)
  /-- `t += d` (362–366) -/
  | timeAddAssign (t d : Nat)
  /-- `t -= d` (368–372) -/
  | timeSubAssign (t d : Nat)

/-- Write one duration object. -/
def Objs.setDur (o : Objs) (i : Nat) (v : Duration) : Objs := { o with dur := o.dur.set i v.usec }

/-- Write one time object. -/
def Objs.setTime (o : Objs) (i : Nat) (v : TimePoint) : Objs := { o with time := o.time.set i v.usec }

/-- Effect of one statement; lines as in `TStmt`. -/
def TStmt.exec (abs : Nat → Int → Outcome Int) (w : Nat) (o : Objs) : TStmt → Outcome Objs
  | .dur c => do return { o with dur := ← c.exec abs w o.dur }
  | .durMake d us => .ok (o.setDur d (.fromMicrosecond us))
  | .durMax d => .ok (o.setDur d (.getMaximum w))
  | .durAdd d a b => do return o.setDur d (← Duration.add abs w ⟨o.dur a⟩ ⟨o.dur b⟩)
  | .durSub d a b => do return o.setDur d (← Duration.sub abs w ⟨o.dur a⟩ ⟨o.dur b⟩)
  | .durNeg d a => do return o.setDur d (← Duration.neg w ⟨o.dur a⟩)
  | .durAbs d a => do return o.setDur d (← Duration.getAbs abs w ⟨o.dur a⟩)
  | .timeCopy t s => .ok (o.setTime t ⟨o.time s⟩)
  | .timeMove t s =>
    let o := o.setTime t ⟨o.time s⟩   -- 311
    .ok (o.setTime s ⟨0⟩)             -- 312
  | .timeMake t us => .ok (o.setTime t (.fromMicrosecond us))
  | .timeMax t => .ok (o.setTime t (.getMaximum w))
  | .timeAdd t s d => do return o.setTime t (← TimePoint.add w ⟨o.time s⟩ ⟨o.dur d⟩)
  | .timeSub t s d => do return o.setTime t (← TimePoint.sub w ⟨o.time s⟩ ⟨o.dur d⟩)
  | .timeAddAssign t d => do return o.setTime t (← TimePoint.add w ⟨o.time t⟩ ⟨o.dur d⟩)
  | .timeSubAssign t d => do return o.setTime t (← TimePoint.sub w ⟨o.time t⟩ ⟨o.dur d⟩)

/-- The objects after each statement of a program, up to the first undefined one (statements as in `TStmt`, time.hpp:56–373). -/
def trace (abs : Nat → Int → Outcome Int) (w : Nat) (o : Objs) : List TStmt → List (Outcome Objs)
  | [] => []
  | c :: cs =>
    match c.exec abs w o with
    | .ok o' => .ok o' :: trace abs w o' cs
    | .ub r => [.ub r]

/-- The objects after a program (statements as in `TStmt`, time.hpp:56–373). -/
def runProgram (abs : Nat → Int → Outcome Int) (w : Nat) (o : Objs) : List TStmt → Outcome Objs
  | [] => .ok o
  | c :: cs => do runProgram abs w (← c.exec abs w o) cs

end Uavcan.Time
