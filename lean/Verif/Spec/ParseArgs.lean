import Verif.Model.ParseArgs

/-!
# Specification of command lines: what a user may write
-/

namespace Uavcan.Spec
open ParseArgs

/-- The valid arguments, as documented by `print_usage` and `man 3 getopt`. -/
inductive Item where
  /-- `--device NAME` -/
  | longSep (name : Str)
  /-- `--device=NAME` -/
  | longEq (name : Str)
  /-- `-d NAME` -/
  | shortSep (name : Str)
  /-- `-dNAME` -/
  | shortCat (name : Str)
  /-- `--continuous` -/
  | continuous
  /-- `--c` -/
  | c
  /-- an argument that is not an option -/
  | other (s : Str)

/-- The arguments an item stands for. -/
def Item.render : Item → List Str
  | longSep n => ["--device".toList, n]
  | longEq n => ["--device=".toList ++ n]
  | shortSep n => ["-d".toList, n]
  | shortCat n => ["-d".toList ++ n]
  | continuous => ["--continuous".toList]
  | c => ["--c".toList]
  | other s => [s]

/-- A name glued to `-d` is not empty; an argument that is not an option does not begin with a dash, unless it is one. -/
def Item.Valid : Item → Prop
  | shortCat n => n ≠ []
  | other s => s = ['-'] ∨ s.head? ≠ some '-'
  | _ => True

/-- The device an item names. -/
def Item.device? : Item → Option Str
  | longSep n | longEq n | shortSep n | shortCat n => some n
  | _ => none

/-- A device in one of the long forms. -/
def Item.isLong : Item → Bool
  | longSep _ | longEq _ => true
  | _ => false

/-- A request to run continuously. -/
def Item.isContinuous : Item → Bool
  | continuous | c => true
  | _ => false

/-- The command line. -/
def commandLine (items : List Item) : List Str := items.flatMap Item.render

/-- The devices named, in order. -/
def devicesOf (items : List Item) : List Str := items.filterMap Item.device?

end Uavcan.Spec
