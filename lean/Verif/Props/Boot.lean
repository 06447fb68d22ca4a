import Verif.Lemmas.Boot

/-!
# Properties C72, C73, C74 and C75: from reset to `main`
-/

namespace Uavcan.Boot

open Uavcan.Startup Uavcan.CoreClock.Spec

/-! ## C72 -/

/-- What a program may rely on from its first instruction on. -/
structure Ready (p : Program) (i : Image) (e : Env) (initData initCode : Nat → BitVec 8) (before after : Cpu) : Prop where
  /-- every variable has its initial value, every RAM function its code -/
  data : ∀ k, k < p.data.size → after.sys.mem (i.layout.dataRam + k) = initData k
  code : ∀ k, k < p.code.size → after.sys.mem (i.layout.codeRam + k) = initCode k
  bss : ∀ k, k < p.bss.size → after.sys.mem (i.layout.bssStart + k) = 0
  /-- the whole stack is free, and aligned as the calling convention wants it -/
  stack : after.sp = i.stackTop ∧ after.sp % 8 = 0 ∧ i.stackLimit + p.stackSize = after.sp
  /-- flash, heap and the memory above the stack are as they were -/
  rest : ∀ a, a < dataOrigin ∨ (data2Origin ≤ a ∧ a < i.stackLimit) ∨ i.stackTop ≤ a →
    after.sys.mem a = before.sys.mem a
  /-- the vector table in use has the contents of the one in flash -/
  vectors : after.sys.vtor = i.layout.vectorRam ∧ ∀ k, k < p.isr.size → after.sys.mem (after.sys.vtor + k) = before.sys.mem k
  /-- no register has anything left over from before the reset -/
  regs : ∀ n, 1 ≤ n → n ≤ 12 → after.regs n = 0#32
  /-- if the program is compiled for the floating point unit, it may be used (full access to coprocessors 10 and 11, and registers
  are saved at once on interrupts); other settings are kept -/
  fpu : e.enableFpu = true → field after.CPACR 20 4 = 15 ∧ field after.FPCCR 30 1 = 0 ∧
    (∀ n, n < 20 ∨ 24 ≤ n → after.CPACR.getLsbD n = before.CPACR.getLsbD n) ∧
    (∀ n, n ≠ 30 → after.FPCCR.getLsbD n = before.FPCCR.getLsbD n)

/-- C72: for every program the linker accepts, from any contents of the RAM and the registers, with flash loaded: the reset code is
defined; the constructors run first, with all sections initialised and interrupts masked; `main` runs once if and when they have
returned, with interrupts unmasked and nothing else changed; if it returns, the processor is left in an endless loop. -/
theorem C72_before_main (p : Program) (hp : p.Aligned) (i : Image) (h : link p = some i) (y : Symbols) (e : Env)
    (he : KeepsToStack e i) (initData initCode : Nat → BitVec 8) (c0 : Cpu) (hl : Loaded p i y initData initCode c0.sys.mem) :
    ∃ c rest, Reset_Handler e i c0 = .ok (.ctors c :: rest) ∧ c.masked = true ∧ Ready p i e initData initCode c0 c ∧
      (e.ctors c = none → rest = []) ∧
      ∀ c1, e.ctors c = some c1 → ∃ rest', rest = .main { c1 with masked := false } :: rest' ∧
        (e.main { c1 with masked := false } = none → rest' = []) ∧
        ∀ c2, e.main { c1 with masked := false } = some c2 → rest' = [.spin c2] := by
  obtain ⟨hst, hdl, hcl, htop⟩ := load_low p hp i h
  obtain ⟨w1, w2, w3, w4, w5, w6, w7, w8, w9, w10, w11, w12, w13, w14⟩ := C61_layout p hp i h
  have hd0 : dataOrigin = 0x1FFE0000 := rfl
  have hd2 : data2Origin = 0x20000000 := rfl
  -- memory when `init_data_bss` begins
  let m1 := e.frame i.stackTop (e.frame i.stackTop c0.sys.mem)
  have hm1 : ∀ a, a < i.stackLimit ∨ i.stackTop ≤ a → m1 a = c0.sys.mem a := by
    intro a ha
    show e.frame i.stackTop _ a = _
    rw [he _ a ha, he _ a ha]
  have hvtor : ∀ s', init_data_bss i.layout { c0.sys with mem := m1 } = .ok s' → s'.vtor = i.layout.vectorRam := by
    intro s' hs'
    obtain ⟨s'', e1, _, e2⟩ := C56_init_data_bss i.layout w1 { c0.sys with mem := m1 }
    rw [hs'] at e1
    cases e1; exact e2
  obtain ⟨s', hs', sd, sc, sb, sv, sr⟩ := C61_startup p hp i h { c0.sys with mem := m1 } initData initCode m1
    (fun k hk => by
      show m1 _ = _
      rw [hm1 _ (.inl (by omega)), hl.data k hk])
    (fun k hk => by
      show m1 _ = _
      rw [hm1 _ (.inl (by omega)), hl.code k hk])
    (fun k _ => rfl)
  let cA : Cpu := { c0 with
    masked := true
    regs := fun n => if 1 ≤ n ∧ n ≤ 12 then 0#32 else c0.regs n
    sp := i.stackTop }
  have hsys : (SystemInit e cA).sys = { c0.sys with mem := e.frame i.stackTop c0.sys.mem } := by
    unfold SystemInit; cases e.enableFpu <;> rfl
  have hsp : (SystemInit e cA).sp = i.stackTop := by unfold SystemInit; cases e.enableFpu <;> rfl
  have hmask : (SystemInit e cA).masked = true := by unfold SystemInit; cases e.enableFpu <;> rfl
  have hregs : (SystemInit e cA).regs = fun n => if 1 ≤ n ∧ n ≤ 12 then 0#32 else c0.regs n := by
    unfold SystemInit; cases e.enableFpu <;> rfl
  have hcall : callInit e i.layout (SystemInit e cA) = .ok { SystemInit e cA with sys := s' } := by
    have hin : init_data_bss i.layout
        { (SystemInit e cA).sys with mem := e.frame (SystemInit e cA).sp (SystemInit e cA).sys.mem } = .ok s' := by
      rw [hsp, hsys]; exact hs'
    unfold callInit
    rw [hin]; rfl
  have hreset : Reset_Handler e i c0 = (do
      let c ← callInit e i.layout (SystemInit e cA)
      match e.ctors c with
      | none => return [.ctors c]
      | some c1 =>
        match e.main { c1 with masked := false } with
        | none => return [.ctors c, .main { c1 with masked := false }]
        | some c2 => return [.ctors c, .main { c1 with masked := false }, .spin c2]) := rfl
  rw [hcall, Outcome.ok_bind] at hreset
  let c : Cpu := { SystemInit e cA with sys := s' }
  have hready : Ready p i e initData initCode c0 c := by
    refine ⟨sd, sc, sb, ⟨hsp, ?_, ?_⟩, ?_, ⟨hvtor s' hs', ?_⟩, ?_, ?_⟩
    · show (SystemInit e cA).sp % 8 = 0; rw [hsp, htop]
    · show i.stackLimit + p.stackSize = (SystemInit e cA).sp; rw [hsp]; exact w13
    · intro a ha
      show s'.mem a = _
      rw [sr a (by omega)]
      exact hm1 a (by omega)
    · intro k hk
      show s'.mem (s'.vtor + k) = _
      rw [sv k hk]
      exact hm1 k (.inl (by omega))
    · intro n h1 h2
      show (SystemInit e cA).regs n = _
      rw [hregs]
      exact if_pos ⟨h1, h2⟩
    · intro hf
      have h1 : (SystemInit e cA).CPACR = c0.CPACR ||| (0x300000#32 ||| 0xC00000#32) := by
        unfold SystemInit; rw [hf]; rfl
      have h2 : (SystemInit e cA).FPCCR = c0.FPCCR &&& ~~~ 0x40000000#32 := by
        unfold SystemInit; rw [hf]; rfl
      show field (SystemInit e cA).CPACR 20 4 = 15 ∧ field (SystemInit e cA).FPCCR 30 1 = 0 ∧
        (∀ n, n < 20 ∨ 24 ≤ n → (SystemInit e cA).CPACR.getLsbD n = c0.CPACR.getLsbD n) ∧
        (∀ n, n ≠ 30 → (SystemInit e cA).FPCCR.getLsbD n = c0.FPCCR.getLsbD n)
      rw [h1, h2]
      exact ⟨fpu_access c0.CPACR, fpu_lazy c0.FPCCR, fpu_access_rest c0.CPACR, fpu_lazy_rest c0.FPCCR⟩
  cases hc : e.ctors c with
  | none =>
    refine ⟨c, [], ?_, hmask, hready, fun _ => rfl, fun c1 h1 => ?_⟩
    · rw [hreset]
      show (match e.ctors c with | none => _ | some c1 => _) = _
      rw [hc]; rfl
    · rw [hc] at h1; cases h1
  | some c1 =>
    cases hmn : e.main { c1 with masked := false } with
    | none =>
      refine ⟨c, [.main { c1 with masked := false }], ?_, hmask, hready, ?_, ?_⟩
      · rw [hreset]
        show (match e.ctors c with | none => _ | some c1 => _) = _
        rw [hc]
        show (match e.main { c1 with masked := false } with | none => _ | some c2 => _) = _
        rw [hmn]; rfl
      · intro hn; rw [hc] at hn; cases hn
      · intro c1' h1
        rw [hc] at h1; cases h1
        exact ⟨[], rfl, fun _ => rfl, fun c2 h2 => by rw [hmn] at h2; cases h2⟩
    | some c2 =>
      refine ⟨c, [.main { c1 with masked := false }, .spin c2], ?_, hmask, hready, ?_, ?_⟩
      · rw [hreset]
        show (match e.ctors c with | none => _ | some c1 => _) = _
        rw [hc]
        show (match e.main { c1 with masked := false } with | none => _ | some c2 => _) = _
        rw [hmn]; rfl
      · intro hn; rw [hc] at hn; cases hn
      · intro c1' h1
        rw [hc] at h1; cases h1
        exact ⟨[.spin c2], rfl, fun h2 => (by rw [hmn] at h2; cases h2), fun c2' h2 => by rw [hmn] at h2; cases h2; rfl⟩

/-! ## C73 -/

/-- C73: for every program the linker accepts: all of the table's entries are defined; the processor starts with the stack pointer at
the top of the stack and at the reset handler; and from the constructors on, every exception of the core and every interrupt of
the chip enters its own handler: the program's function of that name if there is one, otherwise the endless loop. The table is
aligned as VTOR needs it. -/
theorem C73_handlers (p : Program) (hp : p.Aligned) (i : Image) (h : link p = some i) (y : Symbols) (e : Env)
    (he : KeepsToStack e i) (initData initCode : Nat → BitVec 8) (c0 : Cpu) (hl : Loaded p i y initData initCode c0.sys.mem) :
    (∃ ws, vectorWords y i.stackTop = some ws ∧ ws.length = 256) ∧
    fetch { c0.sys with vtor := 0 } 0 = i.stackTop ∧
    (y.defs "Reset_Handler" = none → fetch { c0.sys with vtor := 0 } 1 = y.reset.toNat) ∧
    ∃ c rest, Reset_Handler e i c0 = .ok (.ctors c :: rest) ∧ c.sys.vtor % 1024 = 0 ∧
      (∀ name n, (name, n) ∈ cmsisExceptions → Handles y name (fetch c.sys n)) ∧
      (∀ stem n, (stem ++ "_IRQn", n) ∈ irqNumbers → Handles y (stem ++ "_IRQHandler") (fetch c.sys (16 + n))) := by
  obtain ⟨ws, hws, hlen, hget⟩ := vectorWords_some y i.stackTop
  have hbytes := hl.vectors ws hws
  obtain ⟨c, rest, hr, _, hready, _⟩ := C72_before_main p hp i h y e he initData initCode c0 hl
  have htop := (load_low p hp i h).2.2.2
  have hflash : ∀ n w, ws[n]? = some w → n < 256 → fetch { c0.sys with vtor := 0 } n = w.toNat := by
    intro n w hw hn
    exact wordAt_of_bytes c0.sys.mem 0 ws n w hw (by omega) (fun k hk => by rw [Nat.zero_add]; exact hbytes k hk)
  have hram : ∀ n w, ws[n]? = some w → n < 256 → fetch c.sys n = w.toNat := by
    intro n w hw hn
    refine wordAt_of_bytes c.sys.mem c.sys.vtor ws n w hw (by omega) (fun k hk => ?_)
    rw [hready.vectors.2 k (by rw [hl.isr]; exact hk)]
    exact hbytes k hk
  have hweak : ∀ n name, isr_vector[n]? = some name → name ∈ weakHandlers → n < 256 → Handles y name (fetch c.sys n) := by
    intro n name hn hm h256
    have h1 : ws[n]? = some ((y.defs name).getD y.defaultISR) := by
      rw [hget n, hn]
      show y.word i.stackTop name = _
      exact word_of_weak y i.stackTop name hm
    rw [hram n _ h1 h256]
    exact handles_getD y name
  refine ⟨⟨ws, hws, hlen⟩, ?_, ?_, c, rest, hr, ?_, ?_, ?_⟩
  · have h0 : ws[0]? = some (BitVec.ofNat 32 i.stackTop) := by rw [hget 0]; rfl
    rw [hflash 0 _ h0 (by omega), htop]; rfl
  · intro hn
    have h1 : ws[1]? = some y.reset := by
      rw [hget 1]
      show y.word i.stackTop "Reset_Handler" = _
      unfold Symbols.word Symbols.value
      rw [hn]; rfl
    rw [hflash 1 _ h1 (by omega)]
  · rw [hready.vectors.1, vectorRam_eq p hp i h]
    cases p.flashVectors <;> rfl
  · intro name n hn
    obtain ⟨h1, h2, h3⟩ := core_entry name n hn
    exact hweak n name h1 h2 (by omega)
  · intro stem n hn
    obtain ⟨h1, h2, h3⟩ := irq_entry stem n hn
    exact hweak (16 + n) _ h1 h2 (by omega)

/-- The exception numbers ARMv7-M reserves. -/
def Reserved (n : Nat) : Prop := n = 7 ∨ n = 8 ∨ n = 9 ∨ n = 10 ∨ n = 13

/-- C73: in a program that defines no handlers but those of `main.cpp`, every exception and interrupt there can be ends in an endless
loop: one of those five, or `DefaultISR`. -/
theorem C73_stops (p : Program) (hp : p.Aligned) (i : Image) (h : link p = some i) (y : Symbols) (e : Env)
    (he : KeepsToStack e i) (initData initCode : Nat → BitVec 8) (c0 : Cpu) (hl : Loaded p i y initData initCode c0.sys.mem)
    (hm : ∀ n, n ∉ mainHandlers → y.defs n = none) :
    ∃ c rest, Reset_Handler e i c0 = .ok (.ctors c :: rest) ∧ ∀ n, 2 ≤ n → n < 255 → ¬ Reserved n →
      fetch c.sys n = y.defaultISR.toNat ∨ ∃ name a, name ∈ mainHandlers ∧ y.defs name = some a ∧ fetch c.sys n = a.toNat := by
  obtain ⟨ws, hws, hlen, hget⟩ := vectorWords_some y i.stackTop
  have hbytes := hl.vectors ws hws
  obtain ⟨c, rest, hr, _, hready, _⟩ := C72_before_main p hp i h y e he initData initCode c0 hl
  refine ⟨c, rest, hr, ?_⟩
  intro n h2 h255 hres
  have hram : ∀ w, ws[n]? = some w → fetch c.sys n = w.toNat := by
    intro w hw
    refine wordAt_of_bytes c.sys.mem c.sys.vtor ws n w hw (by omega) (fun k hk => ?_)
    rw [hready.vectors.2 k (by rw [hl.isr]; exact hk)]
    exact hbytes k hk
  rcases all_entry n h2 h255 (by
      intro hu
      have : n = 7 ∨ n = 8 ∨ n = 9 ∨ n = 10 ∨ n = 13 := by simpa [unused] using hu
      exact hres this) with hd | ⟨m, hmn, hmw⟩
  · left
    refine hram _ ?_
    rw [hget n, hd]
    show y.word i.stackTop "DefaultISR" = _
    unfold Symbols.word Symbols.value
    rw [hm "DefaultISR" (by decide)]; rfl
  · have h1 : ws[n]? = some ((y.defs m).getD y.defaultISR) := by
      rw [hget n, hmn]
      exact word_of_weak y i.stackTop m hmw
    rw [hram _ h1]
    cases hy : y.defs m with
    | none => exact .inl rfl
    | some a =>
      refine .inr ⟨m, a, ?_, hy, rfl⟩
      exact Classical.byContradiction fun hn => by rw [hm m hn] at hy; cases hy

/-- The five entries of the table with the names of `main.cpp`'s handlers, and no others. -/
theorem main_entries : ∀ n, n < 255 → ((isr_vector[n]?.any fun m => decide (m ∈ mainHandlers)) = true ↔
    n = 3 ∨ n = 4 ∨ n = 5 ∨ n = 6 ∨ n = 16 + 22) := by
  decide +kernel

/-- C73: in a program that defines the handlers of `main.cpp` and no others, the faults (3 to 6) and the interrupt of the watchdog (22)
enter those; everything else enters `DefaultISR`. -/
theorem C73_own_loops (p : Program) (hp : p.Aligned) (i : Image) (h : link p = some i) (y : Symbols) (e : Env)
    (he : KeepsToStack e i) (initData initCode : Nat → BitVec 8) (c0 : Cpu) (hl : Loaded p i y initData initCode c0.sys.mem)
    (hm : ∀ n, (y.defs n).isSome = true ↔ n ∈ mainHandlers) :
    ∃ c rest, Reset_Handler e i c0 = .ok (.ctors c :: rest) ∧ ∀ n, 2 ≤ n → n < 255 → ¬ Reserved n →
      if n = 3 ∨ n = 4 ∨ n = 5 ∨ n = 6 ∨ n = 16 + 22 then
        ∃ name a, isr_vector[n]? = some name ∧ y.defs name = some a ∧ fetch c.sys n = a.toNat
      else fetch c.sys n = y.defaultISR.toNat := by
  obtain ⟨ws, hws, hlen, hget⟩ := vectorWords_some y i.stackTop
  have hbytes := hl.vectors ws hws
  obtain ⟨c, rest, hr, _, hready, _⟩ := C72_before_main p hp i h y e he initData initCode c0 hl
  refine ⟨c, rest, hr, ?_⟩
  intro n h2 h255 hres
  have hram : ∀ w, ws[n]? = some w → fetch c.sys n = w.toNat := by
    intro w hw
    refine wordAt_of_bytes c.sys.mem c.sys.vtor ws n w hw (by omega) (fun k hk => ?_)
    rw [hready.vectors.2 k (by rw [hl.isr]; exact hk)]
    exact hbytes k hk
  have hnone : ∀ m, m ∉ mainHandlers → y.defs m = none := fun m hn => by
    cases hy : y.defs m with
    | none => rfl
    | some a => exact absurd ((hm m).1 (by rw [hy]; rfl)) hn
  have hent := main_entries n h255
  rcases all_entry n h2 h255 (by
      intro hu
      have : n = 7 ∨ n = 8 ∨ n = 9 ∨ n = 10 ∨ n = 13 := by simpa [unused] using hu
      exact hres this) with hd | ⟨m, hmn, hmw⟩
  · rw [hd] at hent
    rw [if_neg (fun hh => absurd (hent.2 hh) (by decide))]
    refine hram _ ?_
    rw [hget n, hd]
    show y.word i.stackTop "DefaultISR" = _
    unfold Symbols.word Symbols.value
    rw [hnone "DefaultISR" (by decide)]; rfl
  · have h1 : ws[n]? = some ((y.defs m).getD y.defaultISR) := by
      rw [hget n, hmn]
      exact word_of_weak y i.stackTop m hmw
    rw [hmn] at hent
    by_cases hin : m ∈ mainHandlers
    · rw [if_pos (hent.1 (by simpa using hin))]
      obtain ⟨a, ha⟩ := Option.isSome_iff_exists.1 ((hm m).2 hin)
      refine ⟨m, a, hmn, ha, ?_⟩
      rw [hram _ h1, ha]; rfl
    · rw [if_neg (fun hh => hin (by simpa using hent.2 hh)), hram _ h1, hnone m hin]; rfl

/-- The watchdog's interrupt has a place of its own, like the faults. -/
example : isr_vector[16 + 22]? = some "WDOG_EWM_IRQHandler" ∧ "WDOG_EWM_IRQHandler" ∈ mainHandlers ∧ ¬ Reserved 38 ∧
    isr_vector[16 + 21]? = some "FTFC_Fault_IRQHandler" ∧ "FTFC_Fault_IRQHandler" ∉ mainHandlers := by
  refine ⟨by decide +kernel, by decide +kernel, by unfold Reserved; omega, by decide +kernel, by decide +kernel⟩

/-! ## C74 -/

/-- The accesses to the watchdog before the constructors. -/
theorem wdog_log (e : Env) (i : Image) (c0 c : Cpu) (rest : List Event)
    (h : Reset_Handler e i c0 = .ok (.ctors c :: rest)) (h0 : c0.wdog = []) :
    c.wdog = [.writeCNT 0xD928C520#32, .readCNT, .writeCS 0x2120#32, .writeTOVAL 0xFFFF#32] := by
  let cA : Cpu := { c0 with
    masked := true
    regs := fun n => if 1 ≤ n ∧ n ≤ 12 then 0#32 else c0.regs n
    sp := i.stackTop }
  have hreset : Reset_Handler e i c0 = (do
      let c ← callInit e i.layout (SystemInit e cA)
      match e.ctors c with
      | none => return [.ctors c]
      | some c1 =>
        match e.main { c1 with masked := false } with
        | none => return [.ctors c, .main { c1 with masked := false }]
        | some c2 => return [.ctors c, .main { c1 with masked := false }, .spin c2]) := rfl
  rw [hreset] at h
  have hsys : (SystemInit e cA).wdog = [.writeCNT 0xD928C520#32, .readCNT, .writeCS 0x2120#32, .writeTOVAL 0xFFFF#32] := by
    have : (SystemInit e cA).wdog = c0.wdog ++ [.writeCNT 0xD928C520#32, .readCNT, .writeCS 0x2120#32, .writeTOVAL 0xFFFF#32] := by
      unfold SystemInit; cases e.enableFpu <;> rfl
    rw [this, h0]; rfl
  have hc : c.wdog = (SystemInit e cA).wdog := by
    cases hi : callInit e i.layout (SystemInit e cA) with
    | ub r => rw [hi] at h; cases h
    | ok c' =>
      rw [hi, Outcome.ok_bind] at h
      have hcc : c' = c := by
        cases h1 : e.ctors c' with
        | none => simp only [h1] at h; cases h; rfl
        | some c1 =>
          simp only [h1] at h
          cases h2 : e.main { c1 with masked := false } with
          | none => simp only [h2] at h; cases h; rfl
          | some c2 => simp only [h2] at h; cases h; rfl
      rw [← hcc]
      exact callInit_wdog _ _ _ _ hi
  rw [hc, hsys]

/-- What they do to the watchdog. -/
theorem wdog_state (w : Wdog) (hw : w.AfterReset) :
    w.run ([WdogAccess.writeCNT 0xD928C520#32, .readCNT, .writeCS 0x2120#32, .writeTOVAL 0xFFFF#32].map .access) =
      { CS := 0x2120#32, TOVAL := 0xFFFF#32, configured := true, window := true } := by
  obtain ⟨w1, w2, w3, w4⟩ := hw
  have h1 : w.step (.access (.writeCNT 0xD928C520#32)) = { w with window := true } := if_pos ⟨rfl, w1, .inl w2⟩
  show (((w.step (.access (.writeCNT 0xD928C520#32))).step (.access .readCNT)).step
    (.access (.writeCS 0x2120#32))).step (.access (.writeTOVAL 0xFFFF#32)) = _
  rw [h1]; rfl

/-- C74: when the first code of the program runs, the watchdog is off. -/
theorem C74_off_at_start (e : Env) (i : Image) (c0 c : Cpu) (rest : List Event)
    (h : Reset_Handler e i c0 = .ok (.ctors c :: rest)) (h0 : c0.wdog = []) (w : Wdog) (hw : w.AfterReset) :
    ¬ (w.run (c.wdog.map .access)).Enabled ∧ (w.run (c.wdog.map .access)).TOVAL = 0xFFFF#32 := by
  rw [wdog_log e i c0 c rest h h0, wdog_state w hw]
  exact ⟨by show ¬ field 0x2120#32 7 1 = 1; decide, rfl⟩

/-- C74: once `WDOG_disable` has run, the watchdog is off; once its window is closed, whatever is done to it, it stays off. -/
theorem C74_stays_off (w : Wdog) (h13 : field w.CS 13 1 = 1) (hu : w.configured = false ∨ field w.CS 5 1 = 1)
    (es : List WdogEvent) :
    ¬ (w.run (WDOG_disable.map .access)).Enabled ∧ ¬ (w.run (WDOG_disable.map .access ++ .closes :: es)).Enabled := by
  have h1 : w.step (.access (.writeCNT 0xD928C520#32)) = { w with window := true } := if_pos ⟨rfl, h13, hu⟩
  have h2 : w.run (WDOG_disable.map .access) = { CS := 0x2100#32, TOVAL := 0xFFFF#32, configured := true, window := true } := by
    show ((w.step (.access (.writeCNT 0xD928C520#32))).step (.access (.writeTOVAL 0xFFFF#32))).step
      (.access (.writeCS 0x2100#32)) = _
    rw [h1]; rfl
  have inv : ∀ es (v : Wdog), v.CS = 0x2100#32 → v.configured = true → v.window = false →
      (v.run es).CS = 0x2100#32 := by
    intro es
    induction es with
    | nil => intro v hc _ _; exact hc
    | cons x xs ih =>
      intro v hc hf hw
      have hx : v.step x = v := by
        cases x with
        | closes => show { v with window := false } = v; rw [← hw]
        | access a =>
          cases a with
          | writeCNT k =>
            show (if _ then _ else v) = v
            rw [if_neg]
            rintro ⟨_, _, h | h⟩
            · rw [hf] at h; cases h
            · rw [hc] at h; exact absurd h (by decide)
          | readCNT => rfl
          | writeCS k => show (if v.window then _ else v) = v; rw [hw]; rfl
          | writeTOVAL k => show (if v.window then _ else v) = v; rw [hw]; rfl
      show ((v.step x).run xs).CS = _
      rw [hx]; exact ih v hc hf hw
  refine ⟨?_, ?_⟩
  · rw [h2]; show ¬ field 0x2100#32 7 1 = 1; decide
  · have : w.run (WDOG_disable.map .access ++ .closes :: es) =
        Wdog.run { CS := 0x2100#32, TOVAL := 0xFFFF#32, configured := true, window := false } es := by
      unfold Wdog.run at h2 ⊢
      rw [List.foldl_append, h2]; rfl
    rw [this]
    show ¬ field (Wdog.run _ es).CS 7 1 = 1
    rw [inv es _ rfl rfl rfl]; decide

/-- C74: the two one after the other, as they are run: the first leaves the watchdog so that the second can still reach it. -/
theorem C74_from_reset_on (w : Wdog) (hw : w.AfterReset) (e : Env) (i : Image) (c0 c : Cpu) (rest : List Event)
    (h : Reset_Handler e i c0 = .ok (.ctors c :: rest)) (h0 : c0.wdog = []) (es : List WdogEvent) :
    ¬ ((w.run (c.wdog.map .access ++ [.closes])).run (WDOG_disable.map .access ++ .closes :: es)).Enabled := by
  have : w.run (c.wdog.map .access ++ [.closes]) = { CS := 0x2120#32, TOVAL := 0xFFFF#32, configured := true, window := false } := by
    have h1 := wdog_state w hw
    rw [wdog_log e i c0 c rest h h0]
    unfold Wdog.run at h1 ⊢
    rw [List.foldl_append, h1]; rfl
  rw [this]
  exact (C74_stays_off _ (by decide) (.inr (by decide)) es).2

/-! ## C75 -/

/-- C75: `SystemSoftwareReset` writes the key without which the write is ignored, requests the reset, and keeps all other settings. -/
theorem C75_software_reset (c : Cpu) :
    field (SystemSoftwareReset c).AIRCR 16 16 = 0x05FA ∧ field (SystemSoftwareReset c).AIRCR 2 1 = 1 ∧
    ∀ n, n < 16 → n ≠ 2 → (SystemSoftwareReset c).AIRCR.getLsbD n = c.AIRCR.getLsbD n := by
  have he : (SystemSoftwareReset c).AIRCR = c.AIRCR &&& 0x0000FFFF#32 ||| 0x05FA0004#32 := by
    show c.AIRCR &&& 0x0000FFFF#32 ||| 0x05FA0000#32 ||| 0x4#32 = _
    rw [BitVec.or_assoc]; rfl
  rw [he]
  refine ⟨?_, ?_, ?_⟩
  · rw [field_eq, BitVec.extractLsb'_or, BitVec.extractLsb'_and,
      show (0x0000FFFF#32 : BitVec 32).extractLsb' 16 16 = 0#16 from by decide, BitVec.and_zero]
    decide
  · rw [field_eq, BitVec.extractLsb'_or, show (0x05FA0004#32 : BitVec 32).extractLsb' 2 1 = BitVec.allOnes 1 from by decide,
      BitVec.or_allOnes]
    decide
  · intro n hn hne
    have h1 : ∀ m, m < 16 → m ≠ 2 → (0x0000FFFF#32 : BitVec 32).getLsbD m = true ∧ (0x05FA0004#32 : BitVec 32).getLsbD m = false := by
      decide
    obtain ⟨a1, a2⟩ := h1 n hn hne
    rw [BitVec.getLsbD_or, BitVec.getLsbD_and, a1, a2, Bool.and_true, Bool.or_false]

/-! ## A program meeting the hypotheses -/

/-- Two functions of its own, among them a handler for the interrupt of CAN0. -/
def exampleSymbols : Symbols :=
  { defs := fun n =>
      if n = "HardFault_Handler" then some 0x1001#32 else if n = "CAN0_ORed_IRQHandler" then some 0x1235#32 else none
    reset := 0x411#32, defaultISR := 0x433#32 }

/-- Flash with its table, zeros everywhere else. -/
def exampleFlash (st : Nat) : Mem := fun k => ((wordsBytes ((vectorWords exampleSymbols st).getD []))[k]?).getD 0

theorem wordsBytes_length (ws : List (BitVec 32)) : (wordsBytes ws).length = 4 * ws.length := by
  induction ws with
  | nil => rfl
  | cons w ws ih =>
    show (wordsBytes ws).length + 1 + 1 + 1 + 1 = 4 * (ws.length + 1)
    omega

example (i : Image) : Loaded exampleProgram i exampleSymbols (fun k => exampleFlash i.stackTop (i.dataLoad + k))
    (fun k => exampleFlash i.stackTop (i.codeLoad + k)) (exampleFlash i.stackTop) := by
  refine ⟨rfl, ?_, fun k _ => rfl, fun k _ => rfl⟩
  intro ws hws k hk
  obtain ⟨ws', h1, h2, _⟩ := vectorWords_some exampleSymbols i.stackTop
  obtain rfl : ws' = ws := by rw [hws] at h1; exact (Option.some.inj h1).symm
  have hlen : k < (wordsBytes ws').length := by rw [wordsBytes_length, h2]; exact hk
  show some ((wordsBytes ((vectorWords exampleSymbols i.stackTop).getD []))[k]?.getD 0) = _
  rw [hws]
  show some ((wordsBytes ws')[k]?.getD 0) = _
  rw [List.getElem?_eq_getElem hlen]
  rfl

/-- Functions that save a byte on the stack. -/
example (i : Image) (h : i.stackLimit + 4 ≤ i.stackTop) :
    KeepsToStack ⟨true, fun sp m => m.set (sp - 4) 0xAA#8, some, fun _ => none⟩ i := by
  intro m a ha
  show (if a = i.stackTop - 4 then _ else m a) = m a
  rw [if_neg (by omega)]

/-- The interrupt of CAN0 is number 78. -/
example : ("CAN0_ORed" ++ "_IRQn", 78) ∈ irqNumbers := by decide +kernel
example : Handles exampleSymbols "CAN0_ORed_IRQHandler" 0x1235 ∧ Handles exampleSymbols "CAN1_ORed_IRQHandler" 0x433 := by
  refine ⟨?_, ?_⟩
  · unfold Handles exampleSymbols; rfl
  · unfold Handles exampleSymbols; rfl

/-- C73: the numbers `IRQn_Type` gives to the exceptions of the core are those of the handlers in the table, so that an interrupt number
and 16 is the place of its handler for all of them. -/
theorem C73_core_numbers : coreExceptions.map (fun x => x.2 + 16) = cmsisExceptions.map (fun x => (x.2 : Int)) := by decide +kernel

/-- The watchdog as it is after reset. -/
example : Wdog.AfterReset ⟨0x2980#32, 0x400#32, false, false⟩ := by
  refine ⟨by decide, rfl, rfl, ?_⟩
  show field 0x2980#32 7 1 = 1
  decide

/-- Without the unlock word nothing would happen. -/
example : Wdog.Enabled (Wdog.run ⟨0x2980#32, 0x400#32, false, false⟩ [.access (.writeCS 0x2100#32)]) := by
  show field 0x2980#32 7 1 = 1
  decide

end Uavcan.Boot
