import Verif.Model.Boot
import Verif.Model.CoreClock
import Verif.Model.TestSys

/-!
# Model of the on-target test program

`main` in `test/ontarget/S32K148EVB/src/main.cpp` with `PORT_init`, and `LPUART1_init` in `src/LPUART.c`; the clock functions are those of `Verif.Model.CoreClock`, the serial port's those of `Verif.Model.TestSys`, the
watchdog's that of `Verif.Model.Boot`. The masks and shifts are those of `include/S32K148.h`. Status registers are answered by the
hardware, as there.
-/

namespace Uavcan.OnTarget

open Uavcan.CoreClock Uavcan.TestSys

/-- A peripheral that cannot be accessed while its clock is off. -/
inductive Periph where
  | portc
  | lpuart1
  deriving DecidableEq, Repr

/-- What `main` refers to. -/
structure Target where
  /-- the system clock generator -/
  clk : Board
  /-- `PCC->PCCn[PCC_PORTC_INDEX]` -/
  pccPORTC : BitVec 32
  /-- `PCC->PCCn[PCC_LPUART1_INDEX]` -/
  pccLPUART1 : BitVec 32
  /-- `PORTC->PCR[6]`, `PORTC->PCR[7]` -/
  PCR6 : BitVec 32
  PCR7 : BitVec 32
  /-- `LPUART1->BAUD`, `LPUART1->CTRL` -/
  BAUD : BitVec 32
  CTRL : BitVec 32
  wdog : List Boot.WdogAccess
  /-- the variable of system_S32K148.c:71 -/
  SystemCoreClock : BitVec 32
  /-- the accesses to STAT and DATA of LPUART1, and `errno` -/
  uart : TestSys.State
  /-- the accesses to peripherals with a clock of their own, with the peripheral's register in PCC at that time -/
  touched : List (Periph × BitVec 32)
  /-- the writes to `PCC->PCCn[PCC_LPUART1_INDEX]`: its value before, the value written -/
  pccWrites : List (BitVec 32 × BitVec 32)

/-- An access to PORTC. -/
def Target.portc (t : Target) : Target := { t with touched := t.touched ++ [(.portc, t.pccPORTC)] }

/-- An access to LPUART1. -/
def Target.lpuart1 (t : Target) : Target := { t with touched := t.touched ++ [(.lpuart1, t.pccLPUART1)] }

/-- `PORT_init`, main.cpp:49–63. -/
def PORT_init (t : Target) : Target :=
  let t := { t with pccPORTC := t.pccPORTC ||| 0x40000000#32 }                              -- 60
  let t := { t.portc with PCR6 := t.PCR6 ||| ((2#32 <<< 8) &&& 0x700#32) }                  -- 61
  { t.portc with PCR7 := t.PCR7 ||| ((2#32 <<< 8) &&& 0x700#32) }                           -- 62

/-- A write to `PCC->PCCn[PCC_LPUART1_INDEX]`. -/
def Target.setPccLPUART1 (t : Target) (v : BitVec 32) : Target :=
  { t with pccLPUART1 := v, pccWrites := t.pccWrites ++ [(t.pccLPUART1, v)] }

/-- `DEFAULT_SYSTEM_CLOCK`, include/system_S32K148.h:71, with which `SystemCoreClock` is initialised. -/
def DEFAULT_SYSTEM_CLOCK : BitVec 32 := 48000000#32

/-- `LPUART1_init`, LPUART.c:39–71. -/
def LPUART1_init (t : Target) : Target :=
  let t := t.setPccLPUART1 (t.pccLPUART1 &&& ~~~ 0x40000000#32)                             -- 41
  let t := t.setPccLPUART1 (t.pccLPUART1 ||| (((2#32 <<< 24) &&& 0x7000000#32) ||| 0x40000000#32))  -- 42–43
  let t := { t.lpuart1 with BAUD := ((3#32 <<< 0) &&& 0x1FFF#32) ||| ((22#32 <<< 24) &&& 0x1F000000#32) }  -- 45–46
  { t.lpuart1 with CTRL := 0x40000#32 ||| 0x80000#32 }                                      -- 56–57

/-- A function of LPUART.c that uses STAT and DATA. -/
def Target.serial (t : Target) (f : TestSys.State → Option TestSys.State) : Option Target :=
  (f t.uart).map fun s => { t.lpuart1 with uart := s }

/-- The set-up in `main`, main.cpp:116–122. -/
def setup (t : Target) : Option Target := do
  let t := { t with wdog := t.wdog ++ Boot.WDOG_disable }                                   -- 116
  let c ← SOSC_init_8MHz t.clk                                                              -- 117
  let c ← SPLL_init_160MHz c                                                                -- 118
  let c ← NormalRUNmode_80MHz c                                                             -- 119
  let t := PORT_init { t with clk := c }                                                    -- 120
  return LPUART1_init t                                                                     -- 122

/-- A string literal as an array of characters. -/
def cstr (s : List Byte) : Nat → Byte := fun i => s.getD i 0#8

/-- "Running LPUART example\n\r", main.cpp:123. -/
def running : List Byte :=
  "Running LPUART example\n\r".toList.map fun c => BitVec.ofNat 8 c.toNat

/-- "Input character to echo...\n\r", main.cpp:124. -/
def inputCharacter : List Byte :=
  "Input character to echo...\n\r".toList.map fun c => BitVec.ofNat 8 c.toNat

/-- What the tests (`RUN_ALL_TESTS`) do: the buffers they pass to `_write`, and the result. -/
structure Tests where
  output : List (List Byte)
  result : BitVec 32

/-- The tests' output, one `_write` after the other (its result is up to the C library). -/
def writeAll (u : Uart) (fuel : Nat) : List (List Byte) → Target → Option Target
  | [], t => some t
  | b :: bs, t => do
    let t ← t.serial fun s => (TestSys.write u fuel (some (cstr b)) b.length s).map (·.2)
    writeAll u fuel bs t

/-- `n` rounds of the loop main.cpp:142–146. -/
def echoLoop (u : Uart) (fuel : Nat) (result : BitVec 32) : Nat → Target → Option Target
  | 0, t => some t
  | n + 1, t => do
    let t ← t.serial (transmit_char u fuel (result.truncate 8))                             -- 144
    let t ← t.serial (receive_and_echo_char u fuel)                                         -- 145
    echoLoop u fuel result n t

/-- `main`, main.cpp:110–147, up to the end of the tests: line 136. -/
def mainTests (u : Uart) (fuel : Nat) (tests : Tests) (t : Target) : Option Target := do
  let t ← setup t
  let t ← t.serial (transmit_string u fuel (cstr running) (running.length + 1) 0#32)        -- 123
  let t ← t.serial (transmit_string u fuel (cstr inputCharacter) (inputCharacter.length + 1) 0#32)  -- 124
  writeAll u fuel tests.output t                                                            -- 136

/-- `main`, main.cpp:110–147, up to the end of the `n`th round of its last loop. -/
def mainRounds (u : Uart) (fuel : Nat) (tests : Tests) (n : Nat) (t : Target) : Option Target := do
  let t ← mainTests u fuel tests t
  echoLoop u fuel tests.result n t

end Uavcan.OnTarget
