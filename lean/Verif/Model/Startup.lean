import Verif.Core.Outcome

/-!
# Model of the on-target start-up code and of its linker script

`init_data_bss` in `test/ontarget/S32K148EVB/Project_Settings/Startup_Code/startup.c` and
`test/ontarget/S32K148EVB/Project_Settings/Linker_Files/S32K1xx_flash.ld`. The branch for the GNU tool chain (the `#else`
at startup.c:121) is modelled. Addresses are natural numbers, memory is a function from addresses to bytes; that an address
can be read or written at all, and that the word accesses are aligned, is not part of the model (the linker script's
theorem C61 has that they are aligned).
-/

namespace Uavcan.Startup

abbrev Mem := Nat → BitVec 8

/-- The symbols from the linker script used by startup.c:99–144. -/
structure Layout where
  /-- `__VECTOR_TABLE` -/
  vectorTable : Nat
  /-- `__VECTOR_RAM` -/
  vectorRam : Nat
  /-- `__RAM_VECTOR_TABLE_SIZE` -/
  vectorSize : Nat
  /-- `__DATA_ROM` -/
  dataRom : Nat
  /-- `__DATA_END` -/
  dataEnd : Nat
  /-- `__DATA_RAM` -/
  dataRam : Nat
  /-- `__CODE_ROM` -/
  codeRom : Nat
  /-- `__CODE_END` -/
  codeEnd : Nat
  /-- `__CODE_RAM` -/
  codeRam : Nat
  /-- `__BSS_START` -/
  bssStart : Nat
  /-- `__BSS_END` -/
  bssEnd : Nat

/-- Memory and the register VTOR (`INT_VECTOR_Reg`). -/
structure State where
  mem : Mem
  vtor : Nat

/-- `*p = b`. -/
def Mem.set (m : Mem) (p : Nat) (b : BitVec 8) : Mem := fun a => if a = p then b else m a

/-- `to[n] = from[n]` for `uint32_t` arrays, startup.c:152: four bytes are read, then written. -/
def copyWord (m : Mem) (to fr : Nat) : Mem :=
  (((m.set to (m fr)).set (to + 1) (m (fr + 1))).set (to + 2) (m (fr + 2))).set (to + 3) (m (fr + 3))

/-- The loop startup.c:150–153, from `n` on, with `k` words to go. -/
def copyWords (ram table : Nat) : (k n : Nat) → Mem → Mem
  | 0, _, m => m
  | k + 1, n, m => copyWords ram table k (n + 1) (copyWord m (ram + 4 * n) (table + 4 * n))

/-- The loops startup.c:164–169 and 172–177. If the end is before the start, the loop runs through memory until the pointer
wraps around: undefined. -/
def copyLoop (romEnd rom ram : Nat) (m : Mem) : Outcome Mem :=
  if romEnd = rom then .ok m
  else if romEnd < rom then .ub .outOfBounds
  else copyLoop romEnd (rom + 1) (ram + 1) (m.set ram (m rom))
termination_by romEnd - rom

/-- The loop startup.c:180–184. -/
def zeroLoop (bssEnd bss : Nat) (m : Mem) : Outcome Mem :=
  if bssEnd = bss then .ok m
  else if bssEnd < bss then .ub .outOfBounds
  else zeroLoop bssEnd (bss + 1) (m.set bss 0)
termination_by bssEnd - bss

/-- `init_data_bss`, startup.c:87–185. -/
def init_data_bss (l : Layout) (s : State) : Outcome State := do
  let s1 : State :=
    if l.vectorRam ≠ l.vectorTable then
      { mem := copyWords l.vectorRam l.vectorTable (l.vectorSize / 4) 0 s.mem, vtor := l.vectorRam }
    else { s with vtor := l.vectorTable }
  let m ← copyLoop l.dataEnd l.dataRom l.dataRam s1.mem
  let m ← copyLoop l.codeEnd l.codeRom l.codeRam m
  let m ← zeroLoop l.bssEnd l.bssStart m
  return { s1 with mem := m }

/-! ## The linker script -/

/-- An input section (or all of those that go into one output section): alignment and size. -/
structure Section where
  align : Nat
  size : Nat

/-- What is linked. -/
structure Program where
  /-- `__flash_vector_table__` is defined (S32K1xx_flash.ld:47, 182, 183) -/
  flashVectors : Bool
  /-- `.isr_vector` -/
  isr : Section
  /-- `.text`, lines 84–97 -/
  text : Section
  /-- the other output sections placed in `m_text`, in order, lines 99–167 -/
  textMore : List Section
  /-- `.m_interrupts_ram`, line 176 -/
  interruptsRam : Section
  /-- `.data`, `.data*`, `.jcr*`, lines 190–192 -/
  data : Section
  /-- `.code_ram`, line 204 -/
  code : Section
  /-- `.bss`, `.bss*`, `COMMON`, lines 218–220 -/
  bss : Section
  /-- `.customSection`, line 230 -/
  custom : Section
  /-- `HEAP_SIZE`, line 39 -/
  heapSize : Nat
  /-- `STACK_SIZE`, line 40 -/
  stackSize : Nat

/-- `ALIGN(n)`: the location rounded up to a multiple of `n`. -/
def alignUp (n dot : Nat) : Nat := (dot + (n - 1)) / n * n

/-- ORIGIN and ORIGIN + LENGTH of the memory areas, S32K1xx_flash.ld:53–61. -/
def interruptsOrigin : Nat := 0x00000000
def interruptsEnd : Nat := 0x00000000 + 0x00000400
def textOrigin : Nat := 0x00000410
def textEnd : Nat := 0x00000410 + 0x0017FBF0
def dataOrigin : Nat := 0x1FFE0000
def dataLimit : Nat := 0x1FFE0000 + 0x00020000
def data2Origin : Nat := 0x20000000
def data2Limit : Nat := 0x20000000 + 0x0001F000

/-- An output section placed at `dot`: its start (aligned as its contents ask for) and the location after it, with
`. = ALIGN(4)` at the start and at the end. -/
def place (dot : Nat) (s : Section) : Nat × Nat :=
  let start := alignUp 4 (alignUp s.align dot)
  (start, alignUp 4 (start + s.size))

/-- The sections of `m_text` after the first, one after another, S32K1xx_flash.ld:99–167. They have no `. = ALIGN(4)`, they begin
where their alignment allows. -/
def placeText : Nat → List Section → Nat
  | dot, [] => dot
  | dot, s :: ss => placeText (alignUp s.align dot + s.size) ss

/-- The result: the symbols for the start-up code and for the stack. -/
structure Image where
  layout : Layout
  /-- where the file has the contents of `.data` from `__DATA_RAM` on -/
  dataLoad : Nat
  /-- where the file has the contents of `.code` from `__CODE_RAM` on -/
  codeLoad : Nat
  heapBase : Nat
  heapLimit : Nat
  stackLimit : Nat
  stackTop : Nat

namespace Program

/-- `__etext`, S32K1xx_flash.ld:169. -/
def etext (p : Program) : Nat := placeText (place textOrigin p.text).2 p.textMore

/-- `__interrupts_ram_start__`, S32K1xx_flash.ld:175. -/
def ramStart (p : Program) : Nat := alignUp 4 (alignUp p.interruptsRam.align dataOrigin)

/-- `__interrupts_ram_end__`, S32K1xx_flash.ld:176–179. -/
def ramEnd (p : Program) : Nat := alignUp 4 (p.ramStart + p.interruptsRam.size + (if p.flashVectors then 0 else 0x400))

/-- `__data_start__`, `__data_end__`, S32K1xx_flash.ld:185–195. -/
def dataPlace (p : Program) : Nat × Nat := place p.ramEnd p.data

/-- `__code_start__`, `__code_end__`, S32K1xx_flash.ld:199–207. -/
def codePlace (p : Program) : Nat × Nat := place p.dataPlace.2 p.code

/-- `__BSS_START`, `__BSS_END`, S32K1xx_flash.ld:212–224. -/
def bssPlace (p : Program) : Nat × Nat := place p.codePlace.2 p.bss

/-- `__DATA_END`, S32K1xx_flash.ld:197. -/
def dataEnd (p : Program) : Nat := p.etext + (p.dataPlace.2 - p.dataPlace.1)

/-- `__CODE_END`, S32K1xx_flash.ld:209. -/
def codeEnd (p : Program) : Nat := p.dataEnd + (p.codePlace.2 - p.codePlace.1)

/-- `__HeapBase`, S32K1xx_flash.ld:228–240. -/
def heapBase (p : Program) : Nat := alignUp 8 (alignUp p.custom.align data2Origin + p.custom.size)

/-- `__HeapLimit`, S32K1xx_flash.ld:241–242. -/
def heapLimit (p : Program) : Nat := p.heapBase + p.heapSize

/-- The end of `.stack`, S32K1xx_flash.ld:246–250. -/
def stackEnd (p : Program) : Nat := alignUp 8 p.heapLimit + p.stackSize

/-- `__StackLimit`, S32K1xx_flash.ld:253–254. -/
def stackLimit (p : Program) : Nat := data2Limit - p.stackSize

end Program

/-- The linker script; `none`: the linker refuses, because a section does not fit in its region or because of the assertion
in line 259. The load addresses given by `AT(…)` (185, 199) are not checked against any region. `AT` gives the
load address of the start of the section, which is not the address after the `. = ALIGN(4)` in it if there is padding. Left
out: `.flash_config` (it has its own region, which nothing else refers to). -/
def link (p : Program) : Option Image :=
  if interruptsEnd < (place interruptsOrigin p.isr).2 then none                -- 68–74
  else if textEnd < p.etext then none                                          -- 84–167
  else if dataLimit < p.bssPlace.2 then none                                   -- 171–224
  else if data2Limit < p.stackEnd then none                                    -- 228–250
  else if p.stackLimit < p.heapLimit then none                                 -- 259
  else some
    { layout :=
        { vectorTable := interruptsOrigin                                      -- 70
          vectorRam := if p.flashVectors then interruptsOrigin else p.ramStart -- 182
          vectorSize := if p.flashVectors then 0 else p.ramEnd - p.ramStart    -- 183
          dataRom := p.etext                                                   -- 170
          dataEnd := p.dataEnd
          dataRam := p.dataPlace.1                                             -- 188
          codeRom := p.dataEnd                                                 -- 198
          codeEnd := p.codeEnd
          codeRam := p.codePlace.1                                             -- 202
          bssStart := p.bssPlace.1                                             -- 216
          bssEnd := p.bssPlace.2 }                                             -- 223
      dataLoad := p.etext + (p.dataPlace.1 - alignUp p.data.align p.ramEnd)    -- 185
      codeLoad := p.dataEnd + (p.codePlace.1 - alignUp p.code.align p.dataPlace.2)  -- 199
      heapBase := p.heapBase
      heapLimit := p.heapLimit
      stackLimit := p.stackLimit
      stackTop := data2Limit }

end Uavcan.Startup
