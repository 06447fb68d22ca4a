import Verif.Core.Outcome

/-!
# Model of the on-target clock code

`SystemCoreClockUpdate` in `test/ontarget/S32K148EVB/Project_Settings/Startup_Code/system_S32K148.c` and
`SOSC_init_8MHz`, `SPLL_init_160MHz`, `NormalRUNmode_80MHz` in `test/ontarget/S32K148EVB/src/clocks_and_modes.c`. All arithmetic is on
`uint32_t`. The masks and shifts are those of `include/S32K148.h`.
-/

namespace Uavcan.CoreClock

/-- The registers of the clock generator (`SCG`) the code refers to. -/
structure Scg where
  CSR : BitVec 32
  RCCR : BitVec 32
  SIRCDIV : BitVec 32
  SIRCCFG : BitVec 32
  FIRCCFG : BitVec 32
  SPLLCSR : BitVec 32
  SPLLDIV : BitVec 32
  SPLLCFG : BitVec 32

/-- `CPU_XTAL_CLK_HZ`, include/system_S32K148.h:61. -/
def CPU_XTAL_CLK_HZ : BitVec 32 := 8000000#32
/-- `FEATURE_SCG_SIRC_LOW_RANGE_FREQ`, include/S32K148_features.h:134. -/
def SIRC_LOW : BitVec 32 := 2000000#32
/-- `FEATURE_SCG_SIRC_HIGH_RANGE_FREQ`, include/S32K148_features.h:136. -/
def SIRC_HIGH : BitVec 32 := 8000000#32
/-- `fircFreq`, system_S32K148.c:142–147 with include/S32K148_features.h:139–145. -/
def fircFreq : List (BitVec 32) := [48000000#32, 52000000#32, 56000000#32, 60000000#32]

/-- `a / b` on `uint32_t`. -/
def udiv (a b : BitVec 32) : Outcome (BitVec 32) := if b = 0 then .ub .divByZero else .ok (a / b)

/-- `fircFreq[regValue]`. -/
def fircAt (i : BitVec 32) : Outcome (BitVec 32) :=
  match fircFreq[i.toNat]? with
  | some f => .ok f
  | none => .ub .outOfBounds

/-- `SystemCoreClockUpdate`, system_S32K148.c:136–183: the new value of `SystemCoreClock`. Simplified: CSR is read twice (149, 151)
and SPLLCFG too (170, 171); both reads give the same value here, that is, no clock is switched meanwhile. -/
def SystemCoreClockUpdate (r : Scg) (SystemCoreClock : BitVec 32) : Outcome (BitVec 32) := do
  let divider := ((r.CSR &&& 0xF0000#32) >>> 16) + 1#32                                   -- 149
  let scs := (r.CSR &&& 0xF000000#32) >>> 24                                              -- 151
  if scs = 0x1#32 then udiv CPU_XTAL_CLK_HZ divider                                       -- 153–156
  else if scs = 0x2#32 then
    let regValue := (r.SIRCCFG &&& 0x1#32) >>> 0                                          -- 159
    udiv (if regValue ≠ 0#32 then SIRC_HIGH else SIRC_LOW) divider                        -- 160
  else if scs = 0x3#32 then
    let regValue := (r.FIRCCFG &&& 0x3#32) >>> 0                                          -- 164
    let out ← fircAt regValue                                                             -- 165
    udiv out divider
  else if scs = 0x6#32 then
    let prediv := ((r.SPLLCFG &&& 0x700#32) >>> 8) + 1#32                                 -- 170
    let multi := ((r.SPLLCFG &&& 0x1F0000#32) >>> 16) + 16#32                             -- 171
    let out ← udiv (CPU_XTAL_CLK_HZ * multi) (prediv * 2#32)                              -- 172
    udiv out divider
  else return SystemCoreClock                                                             -- 174–182

/-! ## Setting up the clocks

The status registers change by themselves: each read of one is answered by the hardware, given as the list of the values still
to be read. The loops end with the first value that satisfies their condition; if there is none, they do not (`none`). -/

/-- A write to a register, with what was last read from or written to the status registers that matter for it. -/
inductive Write where
  | SOSCDIV (value : BitVec 32) (sosccsr : BitVec 32)
  | SOSCCFG (value : BitVec 32) (sosccsr : BitVec 32)
  | SOSCCSR (was value : BitVec 32)
  | SPLLCSR (was value : BitVec 32) (sosccsr : BitVec 32)
  | SPLLDIV (value : BitVec 32) (spllcsr : BitVec 32)
  | SPLLCFG (value : BitVec 32) (spllcsr : BitVec 32)
  | SIRCDIV (value : BitVec 32)
  | RCCR (value : BitVec 32) (spllcsr : BitVec 32)

/-- Registers, the writes so far, and the answers to come. -/
structure Board where
  scg : Scg
  writes : List Write
  /-- what reading SPLLCSR gives, one value for each read -/
  spllcsr : List (BitVec 32)
  /-- what reading CSR gives -/
  csr : List (BitVec 32)
  SOSCDIV : BitVec 32
  SOSCCFG : BitVec 32
  SOSCCSR : BitVec 32
  /-- what reading SOSCCSR gives -/
  sosccsr : List (BitVec 32)

/-- One read of SPLLCSR. -/
def readSPLLCSR (b : Board) : Option (BitVec 32 × Board) :=
  match b.spllcsr with
  | [] => none
  | v :: vs => some (v, { b with spllcsr := vs, scg := { b.scg with SPLLCSR := v } })

/-- The first value for which the condition is false, and what follows it. -/
def firstNot (p : BitVec 32 → Bool) : List (BitVec 32) → Option (BitVec 32 × List (BitVec 32))
  | [] => none
  | v :: vs => if p v then firstNot p vs else some (v, vs)

/-- `while (p(SCG->SOSCCSR));` -/
def whileSOSCCSR (p : BitVec 32 → Bool) (b : Board) : Option Board :=
  (firstNot p b.sosccsr).map fun (v, vs) => { b with sosccsr := vs, SOSCCSR := v }

/-- `SOSC_init_8MHz`, clocks_and_modes.c:39–62. -/
def SOSC_init_8MHz (b : Board) : Option Board := do
  let d := ((1#32 <<< 0) &&& 0x7#32) ||| ((1#32 <<< 8) &&& 0x700#32)                      -- 45
  let b := { b with SOSCDIV := d, writes := b.writes ++ [Write.SOSCDIV d b.SOSCCSR] }
  let c := ((2#32 <<< 4) &&& 0x30#32) ||| 0x4#32                                          -- 46–47
  let b := { b with SOSCCFG := c, writes := b.writes ++ [Write.SOSCCFG c b.SOSCCSR] }
  let b ← whileSOSCCSR (fun v => v &&& 0x800000#32 ≠ 0#32) b                              -- 50–51
  let e := 0x1#32                                                                         -- 52
  let b := { b with SOSCCSR := e, writes := b.writes ++ [Write.SOSCCSR b.SOSCCSR e] }
  whileSOSCCSR (fun v => v &&& 0x1000000#32 = 0#32) b                                     -- 60–61

/-- `while (p(SCG->SPLLCSR));` -/
def whileSPLLCSR (p : BitVec 32 → Bool) (b : Board) : Option Board :=
  (firstNot p b.spllcsr).map fun (v, vs) => { b with spllcsr := vs, scg := { b.scg with SPLLCSR := v } }

/-- `SPLL_init_160MHz`, clocks_and_modes.c:64–91. -/
def SPLL_init_160MHz (b : Board) : Option Board := do
  let b ← whileSPLLCSR (fun v => v &&& 0x800000#32 ≠ 0#32) b                              -- 70–71
  let (v, b) ← readSPLLCSR b                                                              -- 72
  let nv := v &&& ~~~ 0x1#32
  let b := { b with scg := { b.scg with SPLLCSR := nv }, writes := b.writes ++ [Write.SPLLCSR v nv b.SOSCCSR] }
  let d := b.scg.SPLLDIV ||| ((2#32 <<< 0) &&& 0x7#32 ||| (3#32 <<< 8) &&& 0x700#32)      -- 74–75
  let b := { b with scg := { b.scg with SPLLDIV := d }, writes := b.writes ++ [Write.SPLLDIV d b.scg.SPLLCSR] }
  let c := (24#32 <<< 16) &&& 0x1F0000#32                                                 -- 77
  let b := { b with scg := { b.scg with SPLLCFG := c }, writes := b.writes ++ [Write.SPLLCFG c b.scg.SPLLCSR] }
  let b ← whileSPLLCSR (fun v => v &&& 0x800000#32 ≠ 0#32) b                              -- 81–82
  let (v, b) ← readSPLLCSR b                                                              -- 83
  let nv := v ||| 0x1#32
  let b := { b with scg := { b.scg with SPLLCSR := nv }, writes := b.writes ++ [Write.SPLLCSR v nv b.SOSCCSR] }
  whileSPLLCSR (fun v => v &&& 0x1000000#32 = 0#32) b                                     -- 89–90

/-- `while (p(SCG->CSR));` -/
def whileCSR (p : BitVec 32 → Bool) (b : Board) : Option Board :=
  (firstNot p b.csr).map fun (v, vs) => { b with csr := vs, scg := { b.scg with CSR := v } }

/-- `NormalRUNmode_80MHz`, clocks_and_modes.c:93–114. -/
def NormalRUNmode_80MHz (b : Board) : Option Board := do
  let s := ((1#32 <<< 0) &&& 0x7#32) ||| ((1#32 <<< 8) &&& 0x700#32)                      -- 100
  let b := { b with scg := { b.scg with SIRCDIV := s }, writes := b.writes ++ [Write.SIRCDIV s] }
  let v := ((6#32 <<< 24) &&& 0xF000000#32) ||| ((1#32 <<< 16) &&& 0xF0000#32) |||
    ((1#32 <<< 4) &&& 0xF0#32) ||| ((2#32 <<< 0) &&& 0xF#32)                              -- 106–109
  let b := { b with scg := { b.scg with RCCR := v }, writes := b.writes ++ [Write.RCCR v b.scg.SPLLCSR] }
  whileCSR (fun v => (v &&& 0xF000000#32) >>> 24 ≠ 6#32) b                                -- 111–113

end Uavcan.CoreClock
