import Verif.Spec.Serial

/-!
# Specification of the on-target test program

What its comments promise about the clocks, and what is seen at the other end of the serial line.
-/

namespace Uavcan.OnTarget.Spec

open Uavcan.CoreClock.Spec

/-- The source selected by `csr`, divided by `divs`, runs at `p / q` Hz. -/
def Runs (csr sirccfg firccfg spllcfg : BitVec 32) (divs p q : Nat) : Prop :=
  ∃ n d, source csr sirccfg firccfg spllcfg = some (n, d) ∧ n * q = p * (d * divs)

/-- The divider of the core clock (DIVCORE). -/
def coreDiv (csr : BitVec 32) : Nat := field csr 16 4 + 1
/-- The dividers of the bus clock (DIVCORE, DIVBUS). -/
def busDiv (csr : BitVec 32) : Nat := coreDiv csr * (field csr 4 4 + 1)
/-- The dividers of the flash clock (DIVCORE, DIVSLOW). -/
def flashDiv (csr : BitVec 32) : Nat := coreDiv csr * (field csr 0 4 + 1)

/-- The hardware applies RCCR as a whole: what is read from CSR after the write has the source and the dividers from before, or those
written. -/
def Follows (before written : BitVec 32) (reads : List (BitVec 32)) : Prop :=
  ∀ v ∈ reads, ∃ w, (w = before ∨ w = written) ∧
    field v 24 4 = field w 24 4 ∧ field v 16 4 = field w 16 4 ∧ field v 4 4 = field w 4 4 ∧ field v 0 4 = field w 0 4

/-- A string as bytes. -/
def ascii (s : String) : List (BitVec 8) := s.toList.map fun c => BitVec.ofNat 8 c.toNat

/-- What is sent up to the end of the tests. -/
def greeting : List (BitVec 8) := ascii "Running LPUART example\n\rInput character to echo...\n\r"

/-- What is sent for a character received: the result of the tests (0: passed), the character, line feed, carriage return. -/
def round (passed : Bool) (c : BitVec 8) : List (BitVec 8) := [if passed then 0#8 else 1#8, c, 10#8, 13#8]

end Uavcan.OnTarget.Spec
