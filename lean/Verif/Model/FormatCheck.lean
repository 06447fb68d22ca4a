/-!
# Model of the style check script

`_run` in `test/cmake/modules/clang-format-check.py`. The formatter is an oracle: for every file it either fails (exit
status not 0) or writes something, which Python's XML parser either refuses or makes a document of.
-/

namespace Uavcan.FormatCheck

/-- A node of a document. The text, the attributes of elements and other kinds of nodes make no difference to the script. -/
inductive Node where
  | element (name : String) (children : List Node)
  | instruction (target : String)
  | text
  | comment

/-- `nodeName`. -/
def Node.nodeName : Node → String
  | .element n _ => n
  | .instruction t => t
  | .text => "#text"
  | .comment => "#comment"

/-- `childNodes`; only elements have any. -/
def Node.childNodes : Node → List Node
  | .element _ cs => cs
  | _ => []

/-- The formatter's answer for a file. -/
inductive Answer where
  /-- it exits with a status other than 0 -/
  | failed
  /-- its output is not XML -/
  | malformed
  /-- its output is a document with these nodes at the top -/
  | document (nodes : List Node)

/-- The inner loop, clang-format-check.py:54–62: the number of replacements and whether an exception occurred.
`getAttribute` (60, 61) only exists for elements: for any other node with that name an exception is raised. -/
def countInner : List Node → Nat → Nat × Bool
  | [], n => (n, false)
  | c :: cs, n =>
    if c.nodeName = "replacement" then
      match c with
      | .element _ _ => countInner cs (n + 1)
      | _ => (n, true)
    else countInner cs n

/-- The outer loop, clang-format-check.py:52–62. -/
def countOuter : List Node → Nat → Nat × Bool
  | [], n => (n, false)
  | r :: rs, n =>
    if r.nodeName = "replacements" then
      match countInner r.childNodes n with
      | (n, true) => (n, true)
      | (n, false) => countOuter rs n
    else countOuter rs n

/-- `len(replacements)` at clang-format-check.py:66; exceptions (63–64) are written to the log and forgotten. -/
def countReplacements : Answer → Nat
  | .failed => 0
  | .malformed => 0
  | .document ns => (countOuter ns 0).1

/-- The loop over the files, clang-format-check.py:42–72; `none`: `CalledProcessError` (`check=True`, 45). -/
def runFiles : List Answer → Int → Option Int
  | [], result => some result
  | .failed :: _, _ => none
  | a :: as, result => runFiles as (if countReplacements a > 0 then -1 else result)

/-- `_run`, clang-format-check.py:28–74, given the formatter's answers for the files matching the pattern. -/
def run (answers : List Answer) : Option Int :=
  if answers.length = 0 then some (-1) else runFiles answers 0

/-- The exit status of the script: `sys.exit(main())`, 132–136; an uncaught exception makes it 1. -/
def exitStatus (answers : List Answer) : Nat :=
  match run answers with
  | none => 1
  | some r => (r % 256).toNat

end Uavcan.FormatCheck
