import Verif.Model.Startup

/-!
# Model of the on-target reset code

`__isr_vector`, `Reset_Handler`, `DefaultISR` in `test/ontarget/S32K148EVB/Project_Settings/Startup_Code/startup_S32K148.S`, and
`SystemInit`, `SystemSoftwareReset` in `test/ontarget/S32K148EVB/Project_Settings/Startup_Code/system_S32K148.c`, up to the call
of `main`; `WDOG_disable` and the handlers of `test/ontarget/S32K148EVB/src/main.cpp`. Without `__NO_SYSTEM_INIT`
(startup_S32K148.S:334), with `DISABLE_WDOG` (include/system_S32K148.h:56) and without `SYSTEM_SMC_PMPROT_VALUE` (defined
nowhere), as in this project. Addresses are natural numbers, as in `Verif.Model.Startup`.
-/

namespace Uavcan.Boot

open Uavcan.Startup

/-! ## The vector table -/

/-- The operands of `.long` in the table `__isr_vector`, startup_S32K148.S:35–199. -/
def vectorNames : List String :=
  [
    "__StackTop", "Reset_Handler", "NMI_Handler", "HardFault_Handler", "MemManage_Handler", "BusFault_Handler",
    "UsageFault_Handler", "0", "0", "0", "0", "SVC_Handler", "DebugMon_Handler", "0", "PendSV_Handler",
    "SysTick_Handler", "DMA0_IRQHandler", "DMA1_IRQHandler", "DMA2_IRQHandler", "DMA3_IRQHandler", "DMA4_IRQHandler",
    "DMA5_IRQHandler", "DMA6_IRQHandler", "DMA7_IRQHandler", "DMA8_IRQHandler", "DMA9_IRQHandler", "DMA10_IRQHandler",
    "DMA11_IRQHandler", "DMA12_IRQHandler", "DMA13_IRQHandler", "DMA14_IRQHandler", "DMA15_IRQHandler",
    "DMA_Error_IRQHandler", "MCM_IRQHandler", "FTFC_IRQHandler", "Read_Collision_IRQHandler", "LVD_LVW_IRQHandler",
    "FTFC_Fault_IRQHandler", "WDOG_EWM_IRQHandler", "RCM_IRQHandler", "LPI2C0_Master_IRQHandler",
    "LPI2C0_Slave_IRQHandler", "LPSPI0_IRQHandler", "LPSPI1_IRQHandler", "LPSPI2_IRQHandler",
    "LPI2C1_Master_IRQHandler", "LPI2C1_Slave_IRQHandler", "LPUART0_RxTx_IRQHandler", "Reserved48_IRQHandler",
    "LPUART1_RxTx_IRQHandler", "Reserved50_IRQHandler", "LPUART2_RxTx_IRQHandler", "Reserved52_IRQHandler",
    "Reserved53_IRQHandler", "Reserved54_IRQHandler", "ADC0_IRQHandler", "ADC1_IRQHandler", "CMP0_IRQHandler",
    "Reserved58_IRQHandler", "Reserved59_IRQHandler", "ERM_single_fault_IRQHandler", "ERM_double_fault_IRQHandler",
    "RTC_IRQHandler", "RTC_Seconds_IRQHandler", "LPIT0_Ch0_IRQHandler", "LPIT0_Ch1_IRQHandler",
    "LPIT0_Ch2_IRQHandler", "LPIT0_Ch3_IRQHandler", "PDB0_IRQHandler", "Reserved69_IRQHandler",
    "Reserved70_IRQHandler", "SAI1_Tx_IRQHandler", "SAI1_Rx_IRQHandler", "SCG_IRQHandler", "LPTMR0_IRQHandler",
    "PORTA_IRQHandler", "PORTB_IRQHandler", "PORTC_IRQHandler", "PORTD_IRQHandler", "PORTE_IRQHandler",
    "SWI_IRQHandler", "QSPI_IRQHandler", "Reserved82_IRQHandler", "Reserved83_IRQHandler", "PDB1_IRQHandler",
    "FLEXIO_IRQHandler", "SAI0_Tx_IRQHandler", "SAI0_Rx_IRQHandler", "ENET_TIMER_IRQHandler", "ENET_TX_IRQHandler",
    "ENET_RX_IRQHandler", "ENET_ERR_IRQHandler", "ENET_STOP_IRQHandler", "ENET_WAKE_IRQHandler",
    "CAN0_ORed_IRQHandler", "CAN0_Error_IRQHandler", "CAN0_Wake_Up_IRQHandler", "CAN0_ORed_0_15_MB_IRQHandler",
    "CAN0_ORed_16_31_MB_IRQHandler", "Reserved99_IRQHandler", "Reserved100_IRQHandler", "CAN1_ORed_IRQHandler",
    "CAN1_Error_IRQHandler", "Reserved103_IRQHandler", "CAN1_ORed_0_15_MB_IRQHandler",
    "CAN1_ORed_16_31_MB_IRQHandler", "Reserved106_IRQHandler", "Reserved107_IRQHandler", "CAN2_ORed_IRQHandler",
    "CAN2_Error_IRQHandler", "Reserved110_IRQHandler", "CAN2_ORed_0_15_MB_IRQHandler",
    "CAN2_ORed_16_31_MB_IRQHandler", "Reserved113_IRQHandler", "Reserved114_IRQHandler", "FTM0_Ch0_Ch1_IRQHandler",
    "FTM0_Ch2_Ch3_IRQHandler", "FTM0_Ch4_Ch5_IRQHandler", "FTM0_Ch6_Ch7_IRQHandler", "FTM0_Fault_IRQHandler",
    "FTM0_Ovf_Reload_IRQHandler", "FTM1_Ch0_Ch1_IRQHandler", "FTM1_Ch2_Ch3_IRQHandler", "FTM1_Ch4_Ch5_IRQHandler",
    "FTM1_Ch6_Ch7_IRQHandler", "FTM1_Fault_IRQHandler", "FTM1_Ovf_Reload_IRQHandler", "FTM2_Ch0_Ch1_IRQHandler",
    "FTM2_Ch2_Ch3_IRQHandler", "FTM2_Ch4_Ch5_IRQHandler", "FTM2_Ch6_Ch7_IRQHandler", "FTM2_Fault_IRQHandler",
    "FTM2_Ovf_Reload_IRQHandler", "FTM3_Ch0_Ch1_IRQHandler", "FTM3_Ch2_Ch3_IRQHandler", "FTM3_Ch4_Ch5_IRQHandler",
    "FTM3_Ch6_Ch7_IRQHandler", "FTM3_Fault_IRQHandler", "FTM3_Ovf_Reload_IRQHandler", "FTM4_Ch0_Ch1_IRQHandler",
    "FTM4_Ch2_Ch3_IRQHandler", "FTM4_Ch4_Ch5_IRQHandler", "FTM4_Ch6_Ch7_IRQHandler", "FTM4_Fault_IRQHandler",
    "FTM4_Ovf_Reload_IRQHandler", "FTM5_Ch0_Ch1_IRQHandler", "FTM5_Ch2_Ch3_IRQHandler", "FTM5_Ch4_Ch5_IRQHandler",
    "FTM5_Ch6_Ch7_IRQHandler", "FTM5_Fault_IRQHandler", "FTM5_Ovf_Reload_IRQHandler", "FTM6_Ch0_Ch1_IRQHandler",
    "FTM6_Ch2_Ch3_IRQHandler", "FTM6_Ch4_Ch5_IRQHandler", "FTM6_Ch6_Ch7_IRQHandler", "FTM6_Fault_IRQHandler",
    "FTM6_Ovf_Reload_IRQHandler", "FTM7_Ch0_Ch1_IRQHandler", "FTM7_Ch2_Ch3_IRQHandler", "FTM7_Ch4_Ch5_IRQHandler",
    "FTM7_Ch6_Ch7_IRQHandler", "FTM7_Fault_IRQHandler", "FTM7_Ovf_Reload_IRQHandler"
  ]

/-- `__isr_vector`, startup_S32K148.S:34–292: the rest is 92 times
`DefaultISR` (200–291) and the word reserved for trimming. -/
def isr_vector : List String := vectorNames ++ List.replicate 92 "DefaultISR" ++ ["0xFFFFFFFF"]

/-- The names given to the macro `def_irq_handler`, startup_S32K148.S:373–528: weak symbols with the value `DefaultISR`. -/
def weakHandlers : List String :=
  [
    "NMI_Handler", "HardFault_Handler", "MemManage_Handler", "BusFault_Handler", "UsageFault_Handler", "SVC_Handler",
    "DebugMon_Handler", "PendSV_Handler", "SysTick_Handler", "DMA0_IRQHandler", "DMA1_IRQHandler", "DMA2_IRQHandler",
    "DMA3_IRQHandler", "DMA4_IRQHandler", "DMA5_IRQHandler", "DMA6_IRQHandler", "DMA7_IRQHandler", "DMA8_IRQHandler",
    "DMA9_IRQHandler", "DMA10_IRQHandler", "DMA11_IRQHandler", "DMA12_IRQHandler", "DMA13_IRQHandler",
    "DMA14_IRQHandler", "DMA15_IRQHandler", "DMA_Error_IRQHandler", "MCM_IRQHandler", "FTFC_IRQHandler",
    "Read_Collision_IRQHandler", "LVD_LVW_IRQHandler", "FTFC_Fault_IRQHandler", "WDOG_EWM_IRQHandler",
    "RCM_IRQHandler", "LPI2C0_Master_IRQHandler", "LPI2C0_Slave_IRQHandler", "LPSPI0_IRQHandler", "LPSPI1_IRQHandler",
    "LPSPI2_IRQHandler", "LPI2C1_Master_IRQHandler", "LPI2C1_Slave_IRQHandler", "LPUART0_RxTx_IRQHandler",
    "Reserved48_IRQHandler", "LPUART1_RxTx_IRQHandler", "Reserved50_IRQHandler", "LPUART2_RxTx_IRQHandler",
    "Reserved52_IRQHandler", "Reserved53_IRQHandler", "Reserved54_IRQHandler", "ADC0_IRQHandler", "ADC1_IRQHandler",
    "CMP0_IRQHandler", "Reserved58_IRQHandler", "Reserved59_IRQHandler", "ERM_single_fault_IRQHandler",
    "ERM_double_fault_IRQHandler", "RTC_IRQHandler", "RTC_Seconds_IRQHandler", "LPIT0_Ch0_IRQHandler",
    "LPIT0_Ch1_IRQHandler", "LPIT0_Ch2_IRQHandler", "LPIT0_Ch3_IRQHandler", "PDB0_IRQHandler",
    "Reserved69_IRQHandler", "Reserved70_IRQHandler", "SAI1_Tx_IRQHandler", "SAI1_Rx_IRQHandler", "SCG_IRQHandler",
    "LPTMR0_IRQHandler", "PORTA_IRQHandler", "PORTB_IRQHandler", "PORTC_IRQHandler", "PORTD_IRQHandler",
    "PORTE_IRQHandler", "SWI_IRQHandler", "QSPI_IRQHandler", "Reserved82_IRQHandler", "Reserved83_IRQHandler",
    "PDB1_IRQHandler", "FLEXIO_IRQHandler", "SAI0_Tx_IRQHandler", "SAI0_Rx_IRQHandler", "ENET_TIMER_IRQHandler",
    "ENET_TX_IRQHandler", "ENET_RX_IRQHandler", "ENET_ERR_IRQHandler", "ENET_STOP_IRQHandler", "ENET_WAKE_IRQHandler",
    "CAN0_ORed_IRQHandler", "CAN0_Error_IRQHandler", "CAN0_Wake_Up_IRQHandler", "CAN0_ORed_0_15_MB_IRQHandler",
    "CAN0_ORed_16_31_MB_IRQHandler", "Reserved99_IRQHandler", "Reserved100_IRQHandler", "CAN1_ORed_IRQHandler",
    "CAN1_Error_IRQHandler", "Reserved103_IRQHandler", "CAN1_ORed_0_15_MB_IRQHandler",
    "CAN1_ORed_16_31_MB_IRQHandler", "Reserved106_IRQHandler", "Reserved107_IRQHandler", "CAN2_ORed_IRQHandler",
    "CAN2_Error_IRQHandler", "Reserved110_IRQHandler", "CAN2_ORed_0_15_MB_IRQHandler",
    "CAN2_ORed_16_31_MB_IRQHandler", "Reserved113_IRQHandler", "Reserved114_IRQHandler", "FTM0_Ch0_Ch1_IRQHandler",
    "FTM0_Ch2_Ch3_IRQHandler", "FTM0_Ch4_Ch5_IRQHandler", "FTM0_Ch6_Ch7_IRQHandler", "FTM0_Fault_IRQHandler",
    "FTM0_Ovf_Reload_IRQHandler", "FTM1_Ch0_Ch1_IRQHandler", "FTM1_Ch2_Ch3_IRQHandler", "FTM1_Ch4_Ch5_IRQHandler",
    "FTM1_Ch6_Ch7_IRQHandler", "FTM1_Fault_IRQHandler", "FTM1_Ovf_Reload_IRQHandler", "FTM2_Ch0_Ch1_IRQHandler",
    "FTM2_Ch2_Ch3_IRQHandler", "FTM2_Ch4_Ch5_IRQHandler", "FTM2_Ch6_Ch7_IRQHandler", "FTM2_Fault_IRQHandler",
    "FTM2_Ovf_Reload_IRQHandler", "FTM3_Ch0_Ch1_IRQHandler", "FTM3_Ch2_Ch3_IRQHandler", "FTM3_Ch4_Ch5_IRQHandler",
    "FTM3_Ch6_Ch7_IRQHandler", "FTM3_Fault_IRQHandler", "FTM3_Ovf_Reload_IRQHandler", "FTM4_Ch0_Ch1_IRQHandler",
    "FTM4_Ch2_Ch3_IRQHandler", "FTM4_Ch4_Ch5_IRQHandler", "FTM4_Ch6_Ch7_IRQHandler", "FTM4_Fault_IRQHandler",
    "FTM4_Ovf_Reload_IRQHandler", "FTM5_Ch0_Ch1_IRQHandler", "FTM5_Ch2_Ch3_IRQHandler", "FTM5_Ch4_Ch5_IRQHandler",
    "FTM5_Ch6_Ch7_IRQHandler", "FTM5_Fault_IRQHandler", "FTM5_Ovf_Reload_IRQHandler", "FTM6_Ch0_Ch1_IRQHandler",
    "FTM6_Ch2_Ch3_IRQHandler", "FTM6_Ch4_Ch5_IRQHandler", "FTM6_Ch6_Ch7_IRQHandler", "FTM6_Fault_IRQHandler",
    "FTM6_Ovf_Reload_IRQHandler", "FTM7_Ch0_Ch1_IRQHandler", "FTM7_Ch2_Ch3_IRQHandler", "FTM7_Ch4_Ch5_IRQHandler",
    "FTM7_Ch6_Ch7_IRQHandler", "FTM7_Fault_IRQHandler", "FTM7_Ovf_Reload_IRQHandler"
  ]

/-- `IRQn_Type` for the interrupts of the chip (those that are not negative), include/S32K148.h:208–336. -/
def irqNumbers : List (String × Nat) :=
  [
    ("DMA0_IRQn", 0), ("DMA1_IRQn", 1), ("DMA2_IRQn", 2), ("DMA3_IRQn", 3), ("DMA4_IRQn", 4), ("DMA5_IRQn", 5),
    ("DMA6_IRQn", 6), ("DMA7_IRQn", 7), ("DMA8_IRQn", 8), ("DMA9_IRQn", 9), ("DMA10_IRQn", 10), ("DMA11_IRQn", 11),
    ("DMA12_IRQn", 12), ("DMA13_IRQn", 13), ("DMA14_IRQn", 14), ("DMA15_IRQn", 15), ("DMA_Error_IRQn", 16),
    ("MCM_IRQn", 17), ("FTFC_IRQn", 18), ("Read_Collision_IRQn", 19), ("LVD_LVW_IRQn", 20), ("FTFC_Fault_IRQn", 21),
    ("WDOG_EWM_IRQn", 22), ("RCM_IRQn", 23), ("LPI2C0_Master_IRQn", 24), ("LPI2C0_Slave_IRQn", 25),
    ("LPSPI0_IRQn", 26), ("LPSPI1_IRQn", 27), ("LPSPI2_IRQn", 28), ("LPI2C1_Master_IRQn", 29),
    ("LPI2C1_Slave_IRQn", 30), ("LPUART0_RxTx_IRQn", 31), ("LPUART1_RxTx_IRQn", 33), ("LPUART2_RxTx_IRQn", 35),
    ("ADC0_IRQn", 39), ("ADC1_IRQn", 40), ("CMP0_IRQn", 41), ("ERM_single_fault_IRQn", 44),
    ("ERM_double_fault_IRQn", 45), ("RTC_IRQn", 46), ("RTC_Seconds_IRQn", 47), ("LPIT0_Ch0_IRQn", 48),
    ("LPIT0_Ch1_IRQn", 49), ("LPIT0_Ch2_IRQn", 50), ("LPIT0_Ch3_IRQn", 51), ("PDB0_IRQn", 52), ("SAI1_Tx_IRQn", 55),
    ("SAI1_Rx_IRQn", 56), ("SCG_IRQn", 57), ("LPTMR0_IRQn", 58), ("PORTA_IRQn", 59), ("PORTB_IRQn", 60),
    ("PORTC_IRQn", 61), ("PORTD_IRQn", 62), ("PORTE_IRQn", 63), ("SWI_IRQn", 64), ("QSPI_IRQn", 65),
    ("PDB1_IRQn", 68), ("FLEXIO_IRQn", 69), ("SAI0_Tx_IRQn", 70), ("SAI0_Rx_IRQn", 71), ("ENET_TIMER_IRQn", 72),
    ("ENET_TX_IRQn", 73), ("ENET_RX_IRQn", 74), ("ENET_ERR_IRQn", 75), ("ENET_STOP_IRQn", 76), ("ENET_WAKE_IRQn", 77),
    ("CAN0_ORed_IRQn", 78), ("CAN0_Error_IRQn", 79), ("CAN0_Wake_Up_IRQn", 80), ("CAN0_ORed_0_15_MB_IRQn", 81),
    ("CAN0_ORed_16_31_MB_IRQn", 82), ("CAN1_ORed_IRQn", 85), ("CAN1_Error_IRQn", 86), ("CAN1_ORed_0_15_MB_IRQn", 88),
    ("CAN1_ORed_16_31_MB_IRQn", 89), ("CAN2_ORed_IRQn", 92), ("CAN2_Error_IRQn", 93), ("CAN2_ORed_0_15_MB_IRQn", 95),
    ("CAN2_ORed_16_31_MB_IRQn", 96), ("FTM0_Ch0_Ch1_IRQn", 99), ("FTM0_Ch2_Ch3_IRQn", 100),
    ("FTM0_Ch4_Ch5_IRQn", 101), ("FTM0_Ch6_Ch7_IRQn", 102), ("FTM0_Fault_IRQn", 103), ("FTM0_Ovf_Reload_IRQn", 104),
    ("FTM1_Ch0_Ch1_IRQn", 105), ("FTM1_Ch2_Ch3_IRQn", 106), ("FTM1_Ch4_Ch5_IRQn", 107), ("FTM1_Ch6_Ch7_IRQn", 108),
    ("FTM1_Fault_IRQn", 109), ("FTM1_Ovf_Reload_IRQn", 110), ("FTM2_Ch0_Ch1_IRQn", 111), ("FTM2_Ch2_Ch3_IRQn", 112),
    ("FTM2_Ch4_Ch5_IRQn", 113), ("FTM2_Ch6_Ch7_IRQn", 114), ("FTM2_Fault_IRQn", 115), ("FTM2_Ovf_Reload_IRQn", 116),
    ("FTM3_Ch0_Ch1_IRQn", 117), ("FTM3_Ch2_Ch3_IRQn", 118), ("FTM3_Ch4_Ch5_IRQn", 119), ("FTM3_Ch6_Ch7_IRQn", 120),
    ("FTM3_Fault_IRQn", 121), ("FTM3_Ovf_Reload_IRQn", 122), ("FTM4_Ch0_Ch1_IRQn", 123), ("FTM4_Ch2_Ch3_IRQn", 124),
    ("FTM4_Ch4_Ch5_IRQn", 125), ("FTM4_Ch6_Ch7_IRQn", 126), ("FTM4_Fault_IRQn", 127), ("FTM4_Ovf_Reload_IRQn", 128),
    ("FTM5_Ch0_Ch1_IRQn", 129), ("FTM5_Ch2_Ch3_IRQn", 130), ("FTM5_Ch4_Ch5_IRQn", 131), ("FTM5_Ch6_Ch7_IRQn", 132),
    ("FTM5_Fault_IRQn", 133), ("FTM5_Ovf_Reload_IRQn", 134), ("FTM6_Ch0_Ch1_IRQn", 135), ("FTM6_Ch2_Ch3_IRQn", 136),
    ("FTM6_Ch4_Ch5_IRQn", 137), ("FTM6_Ch6_Ch7_IRQn", 138), ("FTM6_Fault_IRQn", 139), ("FTM6_Ovf_Reload_IRQn", 140),
    ("FTM7_Ch0_Ch1_IRQn", 141), ("FTM7_Ch2_Ch3_IRQn", 142), ("FTM7_Ch4_Ch5_IRQn", 143), ("FTM7_Ch6_Ch7_IRQn", 144),
    ("FTM7_Fault_IRQn", 145), ("FTM7_Ovf_Reload_IRQn", 146)
  ]

/-- `IRQn_Type` for the exceptions of the core, include/S32K148.h:197–205, except `NotAvail_IRQn`. -/
def coreExceptions : List (String × Int) :=
  [
    ("NonMaskableInt_IRQn", -14), ("HardFault_IRQn", -13), ("MemoryManagement_IRQn", -12), ("BusFault_IRQn", -11),
    ("UsageFault_IRQn", -10), ("SVCall_IRQn", -5), ("DebugMonitor_IRQn", -4), ("PendSV_IRQn", -2),
    ("SysTick_IRQn", -1)
  ]

/-- What else is linked: the functions the program defines by name, and where this file's own `Reset_Handler` and `DefaultISR`
are. The values are those the linker puts into the table, with the Thumb bit. -/
structure Symbols where
  defs : String → Option (BitVec 32)
  reset : BitVec 32
  defaultISR : BitVec 32

/-- The value of a symbol of the table: a definition in the program comes before a weak one (startup_S32K148.S:311, 358, 368). The
weak handlers are given the value of this file's own `DefaultISR` (369). `none`: undefined, the linker refuses. -/
def Symbols.value (y : Symbols) (name : String) : Option (BitVec 32) :=
  match y.defs name with
  | some a => some a
  | none =>
    if name = "Reset_Handler" then some y.reset
    else if name = "DefaultISR" ∨ name ∈ weakHandlers then some y.defaultISR
    else none

/-- The word of the table for an operand, startup_S32K148.S:35–292. -/
def Symbols.word (y : Symbols) (stackTop : Nat) (operand : String) : Option (BitVec 32) :=
  if operand = "0" then some 0#32
  else if operand = "0xFFFFFFFF" then some 0xFFFFFFFF#32
  else if operand = "__StackTop" then some (BitVec.ofNat 32 stackTop)
  else y.value operand

/-- The words of `__isr_vector`. -/
def vectorWords (y : Symbols) (stackTop : Nat) : Option (List (BitVec 32)) := isr_vector.mapM (y.word stackTop)

/-- The bytes of words, the least significant first (the S32K148 is little-endian). -/
def wordsBytes (ws : List (BitVec 32)) : List (BitVec 8) :=
  ws.flatMap fun w => [w.extractLsb' 0 8, w.extractLsb' 8 8, w.extractLsb' 16 8, w.extractLsb' 24 8]

/-! ## The processor -/

/-- An access to the watchdog. -/
inductive WdogAccess where
  | writeCNT (v : BitVec 32)
  | readCNT
  | writeCS (v : BitVec 32)
  | writeTOVAL (v : BitVec 32)
  deriving DecidableEq, Repr

/-- What the code up to `main` refers to. -/
structure Cpu where
  /-- r0 to r12 -/
  regs : Nat → BitVec 32
  /-- r13 -/
  sp : Nat
  /-- PRIMASK: interrupts are masked -/
  masked : Bool
  /-- memory and VTOR -/
  sys : State
  CPACR : BitVec 32
  FPCCR : BitVec 32
  AIRCR : BitVec 32
  /-- the accesses to the watchdog so far -/
  wdog : List WdogAccess

/-- How the code is compiled, and what the rest of the program does. -/
structure Env where
  /-- `ENABLE_FPU`, include/s32_core_cm4.h:74–77 -/
  enableFpu : Bool
  /-- what a called function leaves in memory below the stack pointer `sp` (and anywhere, unless it keeps to that) -/
  frame : (sp : Nat) → Mem → Mem
  /-- `__libc_init_array`: the constructors of the program's variables; `none`: it does not return -/
  ctors : Cpu → Option Cpu
  /-- `main` -/
  main : Cpu → Option Cpu

/-- `SystemInit`, system_S32K148.c:82–125, with `ERRATA_E6940` (include/S32K148_features.h:73). -/
def SystemInit (e : Env) (c : Cpu) : Cpu :=
  let c := { c with sys := { c.sys with mem := e.frame c.sp c.sys.mem } }
  let c :=
    if e.enableFpu then
      { c with CPACR := c.CPACR ||| (0x300000#32 ||| 0xC00000#32)              -- 89
               FPCCR := c.FPCCR &&& ~~~ 0x40000000#32 }                        -- 93
    else c
  { c with wdog := c.wdog ++
      [.writeCNT 0xD928C520#32, .readCNT,                                      -- 103–106
       .writeCS ((1#32 <<< 13) ||| (1#32 <<< 8) ||| (0#32 <<< 7) ||| (1#32 <<< 5)),  -- 111–112
       .writeTOVAL 0xFFFF#32] }                                                -- 115

/-- `init_data_bss` called as a function. -/
def callInit (e : Env) (l : Layout) (c : Cpu) : Outcome Cpu := do
  let s ← init_data_bss l { c.sys with mem := e.frame c.sp c.sys.mem }
  return { c with sys := s }

/-- What is run, and with what the processor is in when it is. -/
inductive Event where
  | ctors (c : Cpu)
  | main (c : Cpu)
  /-- `b .`: the processor does nothing more than handle interrupts -/
  | spin (c : Cpu)

/-- `Reset_Handler`, startup_S32K148.S:313–351: what it runs, in order. Not modelled: what it leaves in r0 and lr. -/
def Reset_Handler (e : Env) (i : Image) (c : Cpu) : Outcome (List Event) := do
  let c := { c with masked := true }                                           -- 314
  let c := { c with regs := fun n => if 1 ≤ n ∧ n ≤ 12 then 0#32 else c.regs n } -- 317–328
  let c := { c with sp := i.stackTop }                                         -- 331–332
  let c := SystemInit e c                                                      -- 336–337
  let c ← callInit e i.layout c                                                -- 341–342
  match e.ctors c with                                                         -- 345–346
  | none => return [.ctors c]
  | some c1 =>
    let c1 := { c1 with masked := false }                                      -- 348
    match e.main c1 with                                                       -- 349
    | none => return [.ctors c, .main c1]
    | some c2 => return [.ctors c, .main c1, .spin c2]                         -- 350–351

/-- `WDOG_disable`, src/main.cpp:65–70: the accesses to the watchdog. -/
def WDOG_disable : List WdogAccess :=
  [.writeCNT 0xD928C520#32, .writeTOVAL 0x0000FFFF#32, .writeCS 0x00002100#32]

/-- The handlers `src/main.cpp` defines, lines 73–107; each is an endless loop. -/
def mainHandlers : List String :=
  ["HardFault_Handler", "MemManage_Handler", "BusFault_Handler", "UsageFault_Handler", "WDOG_EWM_IRQHandler"]

/-- `SystemSoftwareReset`, system_S32K148.c:192–208: the value written to AIRCR. -/
def SystemSoftwareReset (c : Cpu) : Cpu :=
  let regValue := c.AIRCR                                                      -- 197
  let regValue := regValue &&& ~~~ 0xFFFF0000#32                               -- 200
  let regValue := regValue ||| ((0x05FA#32 <<< 16) &&& 0xFFFF0000#32)          -- 203
  let regValue := regValue ||| ((1#32 <<< 2) &&& 0x4#32)                       -- 204
  { c with AIRCR := regValue }                                                 -- 207

end Uavcan.Boot
