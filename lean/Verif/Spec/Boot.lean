import Verif.Model.Boot
import Verif.Spec.CoreClock

/-!
# Specification of the reset code

What the Cortex-M4 and the watchdog of the S32K148 do, as far as the reset code relies on it: where the processor gets the
address of a handler from, what its names are, and when the watchdog accepts a new configuration.
-/

namespace Uavcan.Boot

open Uavcan.Startup Uavcan.CoreClock.Spec

/-- The word at an address, little-endian. -/
def wordAt (m : Mem) (a : Nat) : Nat :=
  (m a).toNat + 2 ^ 8 * (m (a + 1)).toNat + 2 ^ 16 * (m (a + 2)).toNat + 2 ^ 24 * (m (a + 3)).toNat

/-- What the processor jumps to for exception number `n`: entry `n` of the table VTOR points at. For exception 1 (reset), VTOR is 0;
entry 0 is the initial stack pointer. -/
def fetch (s : State) (n : Nat) : Nat := wordAt s.mem (s.vtor + 4 * n)

/-- The numbers of the exceptions of the core, and their handlers' names by the CMSIS convention. -/
def cmsisExceptions : List (String × Nat) :=
  [("NMI_Handler", 2), ("HardFault_Handler", 3), ("MemManage_Handler", 4), ("BusFault_Handler", 5), ("UsageFault_Handler", 6),
   ("SVC_Handler", 11), ("DebugMon_Handler", 12), ("PendSV_Handler", 14), ("SysTick_Handler", 15)]

/-- `a` is the function that is to handle what `name` handles: the program's, if it defines one of that name, otherwise the endless
loop `DefaultISR`. -/
def Handles (y : Symbols) (name : String) (a : Nat) : Prop :=
  match y.defs name with
  | some own => a = own.toNat
  | none => a = y.defaultISR.toNat

/-- Flash contains the program: the vector table, and the initial values of `.data` and `.code`. -/
structure Loaded (p : Program) (i : Image) (y : Symbols) (initData initCode : Nat → BitVec 8) (m : Mem) : Prop where
  isr : p.isr.size = 1024
  vectors : ∀ ws, vectorWords y i.stackTop = some ws → ∀ k, k < 1024 → some (m k) = (wordsBytes ws)[k]?
  data : ∀ k, k < p.data.size → m (i.dataLoad + k) = initData k
  code : ∀ k, k < p.code.size → m (i.codeLoad + k) = initCode k

/-- A function called with the stack pointer at the top of the stack leaves everything but the stack alone. -/
def KeepsToStack (e : Env) (i : Image) : Prop :=
  ∀ m a, a < i.stackLimit ∨ i.stackTop ≤ a → e.frame i.stackTop m a = m a

/-! ## The watchdog -/

/-- The watchdog: its configuration, whether it has been configured since reset, and whether it now accepts a configuration. -/
structure Wdog where
  CS : BitVec 32
  TOVAL : BitVec 32
  configured : Bool
  window : Bool

/-- What happens to the watchdog: an access, or the window closes (128 clocks of the bus after it was opened). -/
inductive WdogEvent where
  | access (a : WdogAccess)
  | closes

/-- The watchdog: configuration is accepted only in a window, which is opened by the unlock word, in one piece if CMD32EN (bit 13)
is set, and only if there has been no configuration since reset or if that one had UPDATE (bit 5) set. -/
def Wdog.step (w : Wdog) : WdogEvent → Wdog
  | .closes => { w with window := false }
  | .access (.writeCNT v) =>
    if v.toNat = 0xD928C520 ∧ field w.CS 13 1 = 1 ∧ (w.configured = false ∨ field w.CS 5 1 = 1) then
      { w with window := true }
    else w
  | .access .readCNT => w
  | .access (.writeCS v) => if w.window then { w with CS := v, configured := true } else w
  | .access (.writeTOVAL v) => if w.window then { w with TOVAL := v } else w

def Wdog.run (w : Wdog) (es : List WdogEvent) : Wdog := es.foldl Wdog.step w

/-- The watchdog counts, and resets the chip (bit 7 of CS). -/
def Wdog.Enabled (w : Wdog) : Prop := field w.CS 7 1 = 1

/-- Right after reset: enabled, with CMD32EN, not configured. -/
def Wdog.AfterReset (w : Wdog) : Prop := field w.CS 13 1 = 1 ∧ w.configured = false ∧ w.window = false ∧ w.Enabled

end Uavcan.Boot
