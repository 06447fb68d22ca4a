import Verif.Model.TimeProgram
import Verif.Spec.Clamp

/-!
# Specification: programs over times and durations

What the documentation says about each statement: durations are signed and times unsigned whole numbers of microseconds, arithmetic
is exact and saturates, and a moved-from object is reset to 0. Of the model only the syntax of statements is used.
-/

namespace Uavcan.Spec
open Time

/-- One object gets a new value. -/
def upd (s : Nat → Int) (i : Nat) (v : Int) : Nat → Int := fun j => if j = i then v else s j

/-- The ideal effect of a statement on durations. -/
def idealStmt (w : Nat) (s : Nat → Int) : Stmt → Nat → Int
  | .copy d a => upd s d (s a)
  | .moveAssign d a | .moveConstruct d a => upd (upd s d (s a)) a 0
  | .addAssign d a => upd s d (signedClamp w (s d + s a))
  | .subAssign d a => upd s d (signedClamp w (s d - s a))

/-- The ideal effect of a statement. -/
def ideal (w : Nat) (o : Objs) : TStmt → Objs
  | .dur c => { o with dur := idealStmt w o.dur c }
  | .durMake d us => { o with dur := upd o.dur d us }
  | .durMax d => { o with dur := upd o.dur d (2 ^ (w - 1) - 1) }
  | .durAdd d a b => { o with dur := upd o.dur d (signedClamp w (o.dur a + o.dur b)) }
  | .durSub d a b => { o with dur := upd o.dur d (signedClamp w (o.dur a - o.dur b)) }
  | .durNeg d a => { o with dur := upd o.dur d (signedClamp w (- o.dur a)) }
  | .durAbs d a => { o with dur := upd o.dur d (signedClamp w (o.dur a).natAbs) }
  | .timeCopy t s => { o with time := upd o.time t (o.time s) }
  | .timeMove t s => { o with time := upd (upd o.time t (o.time s)) s 0 }
  | .timeMake t us => { o with time := upd o.time t us }
  | .timeMax t => { o with time := upd o.time t (2 ^ w - 1) }
  | .timeAdd t s d => { o with time := upd o.time t (unsignedClamp w (o.time s + o.dur d)) }
  | .timeSub t s d => { o with time := upd o.time t (unsignedClamp w (o.time s - o.dur d)) }
  | .timeAddAssign t d => { o with time := upd o.time t (unsignedClamp w (o.time t + o.dur d)) }
  | .timeSubAssign t d => { o with time := upd o.time t (unsignedClamp w (o.time t - o.dur d)) }

/-- The ideal objects after each statement. -/
def idealTrace (w : Nat) (o : Objs) : List TStmt → List Objs
  | [] => []
  | c :: cs => ideal w o c :: idealTrace w (ideal w o c) cs

/-- The ideal objects after a program. -/
def idealRun (w : Nat) (o : Objs) : List TStmt → Objs
  | [] => o
  | c :: cs => idealRun w (ideal w o c) cs

/-- The numbers written in the program are numbers of the microsecond types. -/
def LiteralsFit (w : Nat) : TStmt → Prop
  | .durMake _ us => IsInt w us
  | .timeMake _ us => IsUInt w us
  | _ => True

/-- Every object has a value of its type. -/
def Representable (w : Nat) (o : Objs) : Prop := (∀ i, IsInt w (o.dur i)) ∧ ∀ i, IsUInt w (o.time i)

end Uavcan.Spec
