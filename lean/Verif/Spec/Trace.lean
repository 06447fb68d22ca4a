import Verif.Model.Trace

/-!
# Specification: reading a trace

What one who reads the output of a program takes from it: lines end with a line feed; a line that begins like the trace of a frame tells an identifier and a time.
-/

namespace Uavcan.Spec
open SocketCan Can

/-- The lines of a text, without line feeds; an unfinished last line is left out. -/
def linesOf : List Char → List Char → List (List Char)
  | _, [] => []
  | line, c :: cs => if c = '\n' then line :: linesOf [] cs else linesOf (line ++ [c]) cs

/-- What follows a prefix. -/
def after : List Char → List Char → Option (List Char)
  | [], l => some l
  | _ :: _, [] => none
  | p :: ps, c :: cs => if p = c then after ps cs else none

/-- The value of decimal digits. -/
def value (ds : List Char) : Nat := ds.foldl (fun n c => 10 * n + (c.toNat - '0'.toNat)) 0

/-- Identifier and time a line tells. -/
def tells (line : List Char) : Option (Nat × Nat) :=
  match after "SocketCANInterface: rx [".toList line with
  | none => none
  | some r => some (value (r.takeWhile Char.isDigit), value (((r.dropWhile Char.isDigit).drop 1).takeWhile Char.isDigit))

/-- All that a text tells. -/
def told (text : List Char) : List (Nat × Nat) := (linesOf [] text).filterMap tells

/-- Identifier and time of a frame. -/
def idAndTime (f : FrameT) : Nat × Nat := (f.id.toNat, f.timestamp.usec.toNat)

/-- Names of network interfaces contain no line feed (`dev_valid_name` of Linux admits no white space); the options are three. -/
def ValidEvent : TraceEvent → Prop
  | .unsupported o n => o ∈ ["SO_TIMESTAMP", "SO_RXQ_OVFL", "SOL_CAN_RAW"] ∧ '\n' ∉ n.toList
  | _ => True

end Uavcan.Spec
