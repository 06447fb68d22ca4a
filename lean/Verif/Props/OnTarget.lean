import Verif.Spec.OnTarget
import Verif.Lemmas.OnTarget

/-!
# C76–C80: the on-target test program
-/

namespace Uavcan.OnTarget

open Uavcan.CoreClock Uavcan.CoreClock.Spec Uavcan.TestSys Uavcan.Serial Uavcan.Serial.Spec Spec

/-- The target as it comes out of reset, with hardware that takes a while for everything. -/
def fromReset : Target where
  clk := ⟨⟨0x3000001#32, 0x3000001#32, 0, 1, 0, 0, 0, 0⟩, [], [0, 0, 0, 0, 1#32, 0x1000001#32], [0x3000001#32, 0x6010012#32],
    0, 0x10#32, 0, [0, 1#32, 0x1000001#32]⟩
  pccPORTC := 0x80000000#32
  pccLPUART1 := 0x80000000#32
  PCR6 := 0
  PCR7 := 0
  BAUD := 0xF000004#32
  CTRL := 0
  wdog := []
  SystemCoreClock := DEFAULT_SYSTEM_CLOCK
  uart := ⟨[], 0⟩
  touched := []
  pccWrites := []

theorem fromReset_setup : ∃ t', setup fromReset = some t' := ⟨_, rfl⟩

/-! ## C76 -/

/-- The clock of LPUART1, with the other divided clocks as given. -/
def uartClock (sosc firc spll : Option Nat) (t : Target) : Option Nat :=
  selected sosc (sircdiv2 t.clk.scg.SIRCCFG t.clk.scg.SIRCDIV) firc spll t.pccLPUART1

/-- The property as stated in `properties.jsonl`. -/
def C76_Statement : Prop :=
  ∀ (t t' : Target) (sosc firc spll : Option Nat), setup t = some t' →
    Connected t'.PCR6 t'.PCR7 t'.pccLPUART1 t'.BAUD t'.CTRL (uartClock sosc firc spll t') 115200

/-- What the set-up leaves in the registers of the serial port. -/
theorem setup_registers {t t' : Target} (h : setup t = some t') :
    field t'.PCR6 8 3 = field t.PCR6 8 3 ||| 2 ∧ field t'.PCR7 8 3 = field t.PCR7 8 3 ||| 2 ∧
    field t'.pccLPUART1 24 3 = field t.pccLPUART1 24 3 ||| 2 ∧ field t'.pccLPUART1 30 1 = 1 ∧ t'.BAUD = 0x16000003#32 ∧
    t'.CTRL = 0xC0000#32 ∧ t'.clk.scg.SIRCCFG = t.clk.scg.SIRCCFG ∧ t'.clk.scg.SIRCDIV = 0x101#32 := by
  obtain ⟨c1, c2, c3, h1, h2, h3, rfl⟩ := setup_form h
  obtain ⟨_, _, _, _, _, rfl⟩ := SOSC_form h1
  obtain ⟨_, _, _, _, _, rfl⟩ := SPLL_form h2
  obtain ⟨_, _, _, _, rfl⟩ := Normal_form h3
  refine ⟨?_, ?_, ?_, ?_, rfl, rfl, rfl, rfl⟩
  · exact field_or t.PCR6 ((2#32 <<< 8) &&& 0x700#32) 8 3
  · exact field_or t.PCR7 ((2#32 <<< 8) &&& 0x700#32) 8 3
  · show field ((t.pccLPUART1 &&& ~~~ 0x40000000#32) ||| (((2#32 <<< 24) &&& 0x7000000#32) ||| 0x40000000#32)) 24 3 = _
    rw [field_or, field_and, show field (~~~ 0x40000000#32) 24 3 = 2 ^ 3 - 1 by decide, Nat.and_two_pow_sub_one_eq_mod,
      Nat.mod_eq_of_lt (Serial.field_lt _ _ _)]
    rfl
  · show field ((t.pccLPUART1 &&& ~~~ 0x40000000#32) ||| (((2#32 <<< 24) &&& 0x7000000#32) ||| 0x40000000#32)) 30 1 = _
    rw [field_or, field_and, show field (~~~ 0x40000000#32) 30 1 = 0 by decide, Nat.and_zero]
    rfl

theorem or_two (n : Nat) (hn : n < 2 ^ 3) : n ||| 2 = 2 ↔ n = 0 ∨ n = 2 := by
  have : n = 0 ∨ n = 1 ∨ n = 2 ∨ n = 3 ∨ n = 4 ∨ n = 5 ∨ n = 6 ∨ n = 7 := by omega
  rcases this with rfl | rfl | rfl | rfl | rfl | rfl | rfl | rfl <;> decide

theorem understand_115200 : Understand 115200 8000000 69 :=
  (understand_iff _ _ _ (by decide) (by decide) (by decide)).2 (by decide)

/-- C76, partial: a terminal at 115200 8N1 and the program understand each other after the set-up if, before it, the selectors of the
pins and of the clock were 0 (their value after reset) or already 2, and the slow clock has 8 MHz (also as after reset).
Missing: other values before the set-up. -/
theorem C76_connected_partial (t t' : Target) (sosc firc spll : Option Nat) (h : setup t = some t')
    (h6 : field t.PCR6 8 3 = 0 ∨ field t.PCR6 8 3 = 2) (h7 : field t.PCR7 8 3 = 0 ∨ field t.PCR7 8 3 = 2)
    (hp : field t.pccLPUART1 24 3 = 0 ∨ field t.pccLPUART1 24 3 = 2) (hs : field t.clk.scg.SIRCCFG 0 1 = 1) :
    Connected t'.PCR6 t'.PCR7 t'.pccLPUART1 t'.BAUD t'.CTRL (uartClock sosc firc spll t') 115200 := by
  obtain ⟨r6, r7, rp, rg, rb, rc, rs, rd⟩ := setup_registers h
  rw [(or_two _ (Serial.field_lt _ _ _)).2 h6] at r6
  rw [(or_two _ (Serial.field_lt _ _ _)).2 h7] at r7
  rw [(or_two _ (Serial.field_lt _ _ _)).2 hp] at rp
  refine ⟨r6, r7, rg, ?_, 8000000, ?_, ?_, ?_, ?_⟩
  · rw [rb, rc]; unfold EightN1; decide
  · unfold uartClock selected sircdiv2
    rw [rp, rs, rd, hs]
    rfl
  · rw [rb]; decide
  · rw [rb]; decide
  · rw [rb]; exact understand_115200

/-- C76, partial: those values of the pins' selectors are the only ones; and those of the clock's selector, unless another clock is
on. -/
theorem C76_pins_partial (t t' : Target) (sosc firc spll : Option Nat) (rate : Nat) (h : setup t = some t')
    (hc : Connected t'.PCR6 t'.PCR7 t'.pccLPUART1 t'.BAUD t'.CTRL (uartClock sosc firc spll t') rate) :
    (field t.PCR6 8 3 = 0 ∨ field t.PCR6 8 3 = 2) ∧ (field t.PCR7 8 3 = 0 ∨ field t.PCR7 8 3 = 2) ∧
    (firc = none → spll = none → field t.pccLPUART1 24 3 = 0 ∨ field t.pccLPUART1 24 3 = 2) := by
  obtain ⟨r6, r7, rp, -⟩ := setup_registers h
  refine ⟨(or_two _ (Serial.field_lt _ _ _)).1 (r6.symm.trans hc.1), (or_two _ (Serial.field_lt _ _ _)).1 (r7.symm.trans hc.2.1), ?_⟩
  rintro rfl rfl
  obtain ⟨-, -, -, -, clk, hclk, -⟩ := hc
  have hlt := Serial.field_lt t.pccLPUART1 24 3
  have hcases : field t.pccLPUART1 24 3 = 0 ∨ field t.pccLPUART1 24 3 = 1 ∨ field t.pccLPUART1 24 3 = 2 ∨
      field t.pccLPUART1 24 3 = 3 ∨ field t.pccLPUART1 24 3 = 4 ∨ field t.pccLPUART1 24 3 = 5 ∨
      field t.pccLPUART1 24 3 = 6 ∨ field t.pccLPUART1 24 3 = 7 := by omega
  unfold uartClock selected at hclk
  rw [rp] at hclk
  rcases hcases with h | h | h | h | h | h | h | h <;> rw [h] at hclk ⊢
  · exact .inl rfl
  · cases hclk
  · exact .inr rfl
  all_goals cases hclk

/-- C76, partial: exactly when a terminal at 115200 8N1 and the program understand each other after the set-up. The selectors of
the pins must have been 0 or 2. With the selector of the clock at 0 or 2, the slow clock must have 8 MHz; with other values another
clock is taken, which would have to have between 7.60 and 8.31 MHz, or there is none. Missing: all other values before the set-up. -/
theorem C76_iff_partial (t t' : Target) (sosc firc spll : Option Nat) (h : setup t = some t') :
    Connected t'.PCR6 t'.PCR7 t'.pccLPUART1 t'.BAUD t'.CTRL (uartClock sosc firc spll t') 115200 ↔
      (field t.PCR6 8 3 = 0 ∨ field t.PCR6 8 3 = 2) ∧ (field t.PCR7 8 3 = 0 ∨ field t.PCR7 8 3 = 2) ∧
      ((field t.pccLPUART1 24 3 = 0 ∨ field t.pccLPUART1 24 3 = 2) ∧ field t.clk.scg.SIRCCFG 0 1 = 1 ∨
       (field t.pccLPUART1 24 3 = 1 ∨ field t.pccLPUART1 24 3 = 3) ∧ (∃ clk, firc = some clk ∧ 7601040 < clk ∧ clk ≤ 8312470) ∨
       (field t.pccLPUART1 24 3 = 4 ∨ field t.pccLPUART1 24 3 = 6) ∧ ∃ clk, spll = some clk ∧ 7601040 < clk ∧ clk ≤ 8312470) := by
  obtain ⟨r6, r7, rp, rg, rb, rc, rs, rd⟩ := setup_registers h
  have hlt := Serial.field_lt t.pccLPUART1 24 3
  have hcases : field t.pccLPUART1 24 3 = 0 ∨ field t.pccLPUART1 24 3 = 1 ∨ field t.pccLPUART1 24 3 = 2 ∨
      field t.pccLPUART1 24 3 = 3 ∨ field t.pccLPUART1 24 3 = 4 ∨ field t.pccLPUART1 24 3 = 5 ∨
      field t.pccLPUART1 24 3 = 6 ∨ field t.pccLPUART1 24 3 = 7 := by omega
  have h8 : EightN1 t'.BAUD t'.CTRL := by rw [rb, rc]; unfold EightN1; decide
  have hb1 : 7 ≤ field t'.BAUD 24 5 := by rw [rb]; decide
  have hb2 : 0 < field t'.BAUD 0 13 := by rw [rb]; decide
  have hb3 : (field t'.BAUD 24 5 + 1) * field t'.BAUD 0 13 = 69 := by rw [rb]; decide
  have hclk : ∀ clk, Understand 115200 clk 69 ↔ 7601040 < clk ∧ clk ≤ 8312470 := by
    intro clk
    by_cases h0 : clk = 0
    · subst h0
      refine ⟨fun hu => ?_, fun h => absurd h.1 (by decide)⟩
      have := (hu 1 (by decide)).1
      rw [hears_iff _ _ (by decide) (by decide)] at this
      exact absurd this.1 (by decide)
    · rw [understand_iff _ _ _ (by decide) (by omega) (by decide)]
      omega
  have hslow : ¬ Understand 115200 2000000 69 := by
    rw [understand_iff _ _ _ (by decide) (by decide) (by decide)]; decide
  have hsirc : sircdiv2 t'.clk.scg.SIRCCFG t'.clk.scg.SIRCDIV = some (if field t.clk.scg.SIRCCFG 0 1 = 1 then 8000000 else 2000000) := by
    unfold sircdiv2
    rw [rs, rd]
    split <;> rfl
  have key : (∃ clk, uartClock sosc firc spll t' = some clk ∧ Understand 115200 clk 69) ↔
      ((field t.pccLPUART1 24 3 = 0 ∨ field t.pccLPUART1 24 3 = 2) ∧ field t.clk.scg.SIRCCFG 0 1 = 1 ∨
       (field t.pccLPUART1 24 3 = 1 ∨ field t.pccLPUART1 24 3 = 3) ∧ (∃ clk, firc = some clk ∧ Understand 115200 clk 69) ∨
       (field t.pccLPUART1 24 3 = 4 ∨ field t.pccLPUART1 24 3 = 6) ∧ ∃ clk, spll = some clk ∧ Understand 115200 clk 69) := by
    have hs2 : (∃ clk, (some (if field t.clk.scg.SIRCCFG 0 1 = 1 then 8000000 else 2000000)) = some clk ∧ Understand 115200 clk 69) ↔
        field t.clk.scg.SIRCCFG 0 1 = 1 := by
      constructor
      · rintro ⟨clk, h1, h2⟩
        injection h1 with h1
        by_cases hc : field t.clk.scg.SIRCCFG 0 1 = 1
        · exact hc
        · rw [if_neg hc] at h1
          subst h1
          exact absurd h2 hslow
      · intro hc
        exact ⟨8000000, by rw [if_pos hc], understand_115200⟩
    unfold uartClock selected
    rw [rp, hsirc]
    rcases hcases with h | h | h | h | h | h | h | h <;> rw [h]
    · show (∃ clk, some _ = some clk ∧ _) ↔ _
      rw [hs2]; simp
    · show (∃ clk, firc = some clk ∧ _) ↔ _
      simp
    · show (∃ clk, some _ = some clk ∧ _) ↔ _
      rw [hs2]; simp
    · show (∃ clk, firc = some clk ∧ _) ↔ _
      simp
    · show (∃ clk, spll = some clk ∧ _) ↔ _
      simp
    · show (∃ clk, none = some clk ∧ _) ↔ _
      simp
    · show (∃ clk, spll = some clk ∧ _) ↔ _
      simp
    · show (∃ clk, none = some clk ∧ _) ↔ _
      simp
  simp only [← hclk]
  rw [← key]
  unfold Connected
  rw [r6, r7, or_two _ (Serial.field_lt _ _ _), or_two _ (Serial.field_lt _ _ _), hb3]
  constructor
  · rintro ⟨a, b, -, -, clk, c, -, -, d⟩
    exact ⟨a, b, clk, c, d⟩
  · rintro ⟨a, b, clk, c, d⟩
    exact ⟨a, b, rg, h8, clk, c, hb1, hb2, d⟩

/-- C76, partial: exactly the rates a terminal may have, after a set-up from values as in `C76_connected_partial`: 115200 is among
them; 9600, as the comments in LPUART.c:39 and main.cpp:122 say, is not. -/
theorem C76_rates_partial (t t' : Target) (sosc firc spll : Option Nat) (rate : Nat) (hr : 0 < rate) (h : setup t = some t')
    (h6 : field t.PCR6 8 3 = 0 ∨ field t.PCR6 8 3 = 2) (h7 : field t.PCR7 8 3 = 0 ∨ field t.PCR7 8 3 = 2)
    (hp : field t.pccLPUART1 24 3 = 0 ∨ field t.pccLPUART1 24 3 = 2) (hs : field t.clk.scg.SIRCCFG 0 1 = 1) :
    Connected t'.PCR6 t'.PCR7 t'.pccLPUART1 t'.BAUD t'.CTRL (uartClock sosc firc spll t') rate ↔
      110870 ≤ rate ∧ rate ≤ 121246 := by
  obtain ⟨r6, r7, rg, r8, clk, rc, rb1, rb2, -⟩ := C76_connected_partial t t' sosc firc spll h h6 h7 hp hs
  obtain ⟨-, -, rp, -, rb, -, rs, rd⟩ := setup_registers h
  rw [(or_two _ (Serial.field_lt _ _ _)).2 hp] at rp
  have hclk : uartClock sosc firc spll t' = some 8000000 := by
    unfold uartClock selected sircdiv2
    rw [rp, rs, rd, hs]
    rfl
  have hu : Understand rate 8000000 ((field t'.BAUD 24 5 + 1) * field t'.BAUD 0 13) ↔ 110870 ≤ rate ∧ rate ≤ 121246 := by
    rw [rb]
    show Understand rate 8000000 69 ↔ _
    rw [understand_iff _ _ _ hr (by decide) (by decide)]
    omega
  rw [← hu]
  constructor
  · rintro ⟨-, -, -, -, c, hc, -, -, h⟩
    rw [hclk] at hc
    injection hc with hc
    exact hc ▸ h
  · intro h
    exact ⟨r6, r7, rg, r8, 8000000, hclk, rb1, rb2, h⟩

/-- C76 is false of the code: it sets bits of the selectors without clearing the others. If a pin was at alternative 4 before (or the
clock at 1), it is not connected (clocked) as it should be. -/
theorem C76_full_statement_fails : ¬ C76_Statement := by
  intro h
  have hs : ∃ t', setup { fromReset with PCR6 := 0x400#32 } = some t' := ⟨_, rfl⟩
  obtain ⟨t', ht⟩ := hs
  have := C76_pins_partial _ t' _ _ _ 115200 ht (h _ _ none none none ht)
  revert this
  decide

/-- From reset. -/
example : ∃ t', setup fromReset = some t' ∧
    Connected t'.PCR6 t'.PCR7 t'.pccLPUART1 t'.BAUD t'.CTRL (uartClock none none none t') 115200 := by
  obtain ⟨t', h⟩ := fromReset_setup
  exact ⟨t', h, C76_connected_partial _ _ _ _ _ h (.inl rfl) (.inl rfl) (.inl rfl) (by decide)⟩

/-- Two characters with 24 ticks for a bit, the second directly after the first: a receiver that is three per cent off reads them, one
at half the rate does not. -/
example : read 25 (fun n => n) (line 24 [(3, 0x41#8), (0, 0x0A#8)]) = [some 0x41#8, some 0x0A#8] ∧
    read 23 (fun n => n) (line 24 [(3, 0x41#8), (0, 0x0A#8)]) = [some 0x41#8, some 0x0A#8] ∧
    read 48 (fun _ => 0) (line 24 [(3, 0x41#8), (0, 0x0A#8)]) ≠ [some 0x41#8, some 0x0A#8] := by decide +kernel

/-! ## C77 -/

/-- C77: the program accesses PORTC and LPUART1 only while their clocks are on (an access without clock is a bus fault). -/
theorem C77_clocked (u : Uart) (fuel : Nat) (tests : Tests) (n : Nat) (t t' : Target) (h : mainRounds u fuel tests n t = some t') :
    ∀ p v, (p, v) ∈ t'.touched → (p, v) ∈ t.touched ∨ field v 30 1 = 1 := by
  unfold mainRounds mainTests at h
  obtain ⟨t4, h4, h5⟩ := Option.bind_eq_some_iff.1 h
  obtain ⟨t1, h1, h4⟩ := Option.bind_eq_some_iff.1 h4
  obtain ⟨t2, h2, h4⟩ := Option.bind_eq_some_iff.1 h4
  obtain ⟨t3, h3, h4⟩ := Option.bind_eq_some_iff.1 h4
  obtain ⟨cs, -, k5⟩ := echoLoop_adds u fuel _ n _ _ h5
  have hsame : Same t1 t' :=
    (serial_form h2).1.trans ((serial_form h3).1.trans ((writeAll_adds u fuel _ _ _ h4).same.trans k5.same))
  obtain ⟨-, -, -, rg, -⟩ := setup_registers h1
  intro p v hm
  rcases hsame.touched _ hm with h | h
  · obtain ⟨c1, c2, c3, -, -, -, rfl⟩ := setup_form h1
    have hg : field (t.pccPORTC ||| 0x40000000#32) 30 1 = 1 := by
      rw [field_or, show field 0x40000000#32 30 1 = 1 by decide]
      have := Serial.field_lt t.pccPORTC 30 1
      have : field t.pccPORTC 30 1 = 0 ∨ field t.pccPORTC 30 1 = 1 := by omega
      rcases this with h | h <;> rw [h] <;> rfl
    have h' : (p, v) ∈ (((t.touched ++ [(.portc, t.pccPORTC ||| 0x40000000#32)]) ++ [(.portc, t.pccPORTC ||| 0x40000000#32)]) ++
        [(.lpuart1, (LPUART1_init (PORT_init { t with wdog := t.wdog ++ Boot.WDOG_disable, clk := c3 })).pccLPUART1)]) ++
        [(.lpuart1, (LPUART1_init (PORT_init { t with wdog := t.wdog ++ Boot.WDOG_disable, clk := c3 })).pccLPUART1)] := h
    simp only [List.mem_append, List.mem_cons, List.not_mem_nil, or_false, Prod.mk.injEq] at h'
    rcases h' with (((h | h) | h) | h) | h
    · exact .inl h
    · rw [h.2]; exact .inr hg
    · rw [h.2]; exact .inr hg
    · rw [h.2]; exact .inr rg
    · rw [h.2]; exact .inr rg
  · injection h with _ h
    rw [h]
    exact .inr rg

/-- C77: the source of a peripheral's clock is changed only while that clock is off, and the clock stays on from the set-up on. -/
theorem C77_source_changed_off (u : Uart) (fuel : Nat) (tests : Tests) (n : Nat) (t t' : Target)
    (h : mainRounds u fuel tests n t = some t') :
    (∀ was v, (was, v) ∈ t'.pccWrites → (was, v) ∈ t.pccWrites ∨ field v 24 3 = field was 24 3 ∨ field was 30 1 = 0) ∧
    field t'.pccLPUART1 30 1 = 1 := by
  unfold mainRounds mainTests at h
  obtain ⟨t4, h4, h5⟩ := Option.bind_eq_some_iff.1 h
  obtain ⟨t1, h1, h4⟩ := Option.bind_eq_some_iff.1 h4
  obtain ⟨t2, h2, h4⟩ := Option.bind_eq_some_iff.1 h4
  obtain ⟨t3, h3, h4⟩ := Option.bind_eq_some_iff.1 h4
  obtain ⟨cs, -, k5⟩ := echoLoop_adds u fuel _ n _ _ h5
  have hsame : Same t1 t' :=
    (serial_form h2).1.trans ((serial_form h3).1.trans ((writeAll_adds u fuel _ _ _ h4).same.trans k5.same))
  obtain ⟨-, -, -, rg, -⟩ := setup_registers h1
  refine ⟨?_, by rw [hsame.pccLPUART1]; exact rg⟩
  intro was v hm
  rw [hsame.pccWrites] at hm
  obtain ⟨c1, c2, c3, -, -, -, rfl⟩ := setup_form h1
  have h' : (was, v) ∈ (t.pccWrites ++ [(t.pccLPUART1, t.pccLPUART1 &&& ~~~ 0x40000000#32)]) ++
      [(t.pccLPUART1 &&& ~~~ 0x40000000#32,
        (t.pccLPUART1 &&& ~~~ 0x40000000#32) ||| (((2#32 <<< 24) &&& 0x7000000#32) ||| 0x40000000#32))] := hm
  simp only [List.mem_append, List.mem_cons, List.not_mem_nil, or_false, Prod.mk.injEq] at h'
  rcases h' with (h | ⟨rfl, rfl⟩) | ⟨rfl, rfl⟩
  · exact .inl h
  · right; left
    rw [field_and, show field (~~~ 0x40000000#32) 24 3 = 2 ^ 3 - 1 by decide, Nat.and_two_pow_sub_one_eq_mod,
      Nat.mod_eq_of_lt (Serial.field_lt _ _ _)]
  · right; right
    rw [field_and, show field (~~~ 0x40000000#32) 30 1 = 0 by decide, Nat.and_zero]

/-! ## C78 -/

theorem greeting_eq : running ++ inputCharacter = greeting := by decide +kernel

/-- C78: what is sent, up to the end of any number of rounds, is the greeting, the tests' output, and for each character received the
result and the character on a line of its own; nothing is lost on the way to the transmitter. -/
theorem C78_transcript (u : Uart) (fuel : Nat) (tests : Tests) (n : Nat) (t t' : Target)
    (h : mainRounds u fuel tests n t = some t') (hr : tests.result = 0#32 ∨ tests.result = 1#32) :
    ∃ cs : List (BitVec 8), cs.length = n ∧ received t'.uart.log = received t.uart.log ++ cs ∧
      sent t'.uart.log = sent t.uart.log ++ greeting ++ tests.output.flatten ++ cs.flatMap (round (tests.result == 0#32)) ∧
      (NoOverrun t.uart.log → NoOverrun t'.uart.log) := by
  unfold mainRounds mainTests at h
  obtain ⟨t4, h4, h5⟩ := Option.bind_eq_some_iff.1 h
  obtain ⟨t1, h1, h4⟩ := Option.bind_eq_some_iff.1 h4
  obtain ⟨t2, h2, h4⟩ := Option.bind_eq_some_iff.1 h4
  obtain ⟨t3, h3, h4⟩ := Option.bind_eq_some_iff.1 h4
  obtain ⟨cs, hl, k5⟩ := echoLoop_adds u fuel _ n _ _ h5
  have k2 := string_adds (by decide +kernel) (by decide +kernel) h2
  have k3 := string_adds (by decide +kernel) (by decide +kernel) h3
  have k4 := writeAll_adds u fuel _ _ _ h4
  have k := ((k2.trans k3).trans k4).trans k5
  have e : t1.uart = t.uart := by
    obtain ⟨c1, c2, c3, -, -, -, rfl⟩ := setup_form h1
    rfl
  have hrd : (cs.flatMap fun c => [tests.result.truncate 8, c, 10#8, 13#8]) = cs.flatMap (round (tests.result == 0#32)) := by
    congr 1
    funext c
    rcases hr with h | h <;> rw [h] <;> rfl
  refine ⟨cs, hl, ?_, ?_, ?_⟩
  · rw [k.received, e]; simp
  · rw [k.sent, e, hrd, greeting_eq]; simp
  · rw [← e]; exact k.overrun

/-- C78: if the set-up ends, the transmitter does its work and characters keep coming, any number of rounds is reached. -/
theorem C78_goes_on (u : Uart) (hu : u.Sends) (hr : u.Receives) (tests : Tests) (n : Nat) (t t1 : Target) (h : setup t = some t1) :
    ∃ fuel t', mainRounds u fuel tests n t = some t' := by
  obtain ⟨f2, t2, h2⟩ := string_ends u hu running (by decide +kernel) (by decide +kernel) t1
  obtain ⟨f3, t3, h3⟩ := string_ends u hu inputCharacter (by decide +kernel) (by decide +kernel) t2
  obtain ⟨f4, t4, h4⟩ := writeAll_ends u hu tests.output t3
  obtain ⟨f5, t5, h5⟩ := echoLoop_ends u hu hr tests.result n t4
  refine ⟨f2 + f3 + f4 + f5, t5, ?_⟩
  unfold mainRounds mainTests
  rw [h]
  simp only [Option.bind_eq_bind, Option.bind_some]
  rw [h2 _ (by omega)]
  simp only [Option.bind_some]
  rw [h3 _ (by omega)]
  simp only [Option.bind_some]
  rw [writeAll_mono u f4 _ (by omega) _ _ _ h4]
  simp only [Option.bind_some]
  exact echoLoop_mono u f5 _ (by omega) _ _ _ _ h5

/-- C78: and the terminal reads what was sent, in spite of the gaps, after a set-up as in C76. -/
theorem C78_terminal (u : Uart) (fuel : Nat) (tests : Tests) (n : Nat) (t t' : Target)
    (h : mainRounds u fuel tests n t = some t') (hr : tests.result = 0#32 ∨ tests.result = 1#32) (h0 : sent t.uart.log = [])
    (m : Nat) (hm : 0 < m) (d : Nat → Nat) (hd : ∀ k, 16 * d k ≤ 16000000 * m) (gaps : List (Nat × BitVec 8))
    (hg : gaps.map (·.2) = sent t'.uart.log) :
    ∃ cs : List (BitVec 8), cs.length = n ∧ received t'.uart.log = received t.uart.log ++ cs ∧
      read (16000000 * m) d (line (69 * (230400 * m)) gaps) =
        (greeting ++ tests.output.flatten ++ cs.flatMap (round (tests.result == 0#32))).map some := by
  obtain ⟨cs, hl, hrec, hs, -⟩ := C78_transcript u fuel tests n t t' h hr
  refine ⟨cs, hl, hrec, ?_⟩
  rw [hears (69 * (230400 * m)) (16000000 * m) (by omega) (by omega) (by omega) (by omega) d hd gaps]
  rw [h0, List.nil_append] at hs
  rw [← hs, ← hg, List.map_map]
  rfl

/-- A terminal that sends a character whenever it is asked, tests that print "ok" and pass, two rounds. -/
example : ∃ fuel t', mainRounds ⟨fun n => if n % 3 = 0 then 0xA00000#32 else 0#32, fun n => BitVec.ofNat 8 n⟩ fuel
    ⟨[ascii "o", [], ascii "k"], 0#32⟩ 2 fromReset = some t' := by
  obtain ⟨t1, h⟩ := fromReset_setup
  have hb : ∀ n, ∃ m, n ≤ m ∧ m % 3 = 0 := fun n => ⟨3 * n, by omega, by omega⟩
  refine C78_goes_on _ ?_ ?_ _ 2 _ t1 h
  · intro n
    obtain ⟨m, hm, h3⟩ := hb n
    exact ⟨m, hm, by simp only [h3, if_true]; decide⟩
  · intro n
    obtain ⟨m, hm, h3⟩ := hb n
    exact ⟨m, hm, by simp only [h3, if_true]; decide⟩

/-! ## C79 -/

/-- The property as stated in `properties.jsonl`. -/
def C79_Statement : Prop :=
  ∀ t t' : Target, setup t = some t' → t.SystemCoreClock = DEFAULT_SYSTEM_CLOCK → field t.clk.scg.CSR 24 4 ≠ 6 →
    Follows t.clk.scg.CSR t'.clk.scg.RCCR t.clk.csr →
    let r := t'.clk.scg
    Runs r.CSR r.SIRCCFG r.FIRCCFG r.SPLLCFG (coreDiv r.CSR) 80000000 1 ∧
    Runs r.CSR r.SIRCCFG r.FIRCCFG r.SPLLCFG (busDiv r.CSR) 40000000 1 ∧
    Runs r.CSR r.SIRCCFG r.FIRCCFG r.SPLLCFG (flashDiv r.CSR) 20000000 1 ∧
    Runs r.CSR r.SIRCCFG r.FIRCCFG r.SPLLCFG (coreDiv r.CSR) t'.SystemCoreClock.toNat 1

theorem update_80 (r : Scg) (old : BitVec 32) (h : coreClock r.CSR r.SIRCCFG r.FIRCCFG r.SPLLCFG = some 80000000) :
    SystemCoreClockUpdate r old = .ok 80000000#32 := by
  obtain ⟨new, e, hn⟩ := C58_core_clock r old
  rw [h] at hn
  rw [e]
  congr 1
  exact BitVec.eq_of_toNat_eq hn

/-- C79, partial: after the set-up the core runs at 80 MHz, the bus at 40 MHz, the flash at 26 2/3 MHz, and
`SystemCoreClockUpdate`, if it were called, would set `SystemCoreClock` to 80 MHz. Missing: the flash clock of 20 MHz
promised in main.cpp:119, and the call. -/
theorem C79_frequencies_partial (t t' : Target) (h : setup t = some t') (hsrc : field t.clk.scg.CSR 24 4 ≠ 6)
    (hhw : Follows t.clk.scg.CSR t'.clk.scg.RCCR t.clk.csr) :
    Runs t'.clk.scg.CSR t'.clk.scg.SIRCCFG t'.clk.scg.FIRCCFG t'.clk.scg.SPLLCFG (coreDiv t'.clk.scg.CSR) 80000000 1 ∧
    Runs t'.clk.scg.CSR t'.clk.scg.SIRCCFG t'.clk.scg.FIRCCFG t'.clk.scg.SPLLCFG (busDiv t'.clk.scg.CSR) 40000000 1 ∧
    Runs t'.clk.scg.CSR t'.clk.scg.SIRCCFG t'.clk.scg.FIRCCFG t'.clk.scg.SPLLCFG (flashDiv t'.clk.scg.CSR) 80000000 3 ∧
    SystemCoreClockUpdate t'.clk.scg t'.SystemCoreClock = .ok 80000000#32 ∧
    t'.SystemCoreClock = t.SystemCoreClock := by
  obtain ⟨c1, c2, c3, h1, h2, h3, rfl⟩ := setup_form h
  obtain ⟨_, _, _, _, _, rfl⟩ := SOSC_form h1
  obtain ⟨_, _, _, _, _, rfl⟩ := SPLL_form h2
  obtain ⟨v, rest, hv, h6, rfl⟩ := Normal_form h3
  have hw : Follows t.clk.scg.CSR 0x6010012#32 t.clk.csr := hhw
  obtain ⟨w, hw, e1, e2, e3, e4⟩ := hw v hv
  have : w = 0x6010012#32 := by
    rcases hw with rfl | rfl
    · exact absurd (e1.symm.trans h6) hsrc
    · rfl
  subst this
  have hsource : ∀ a b, source v a b 0x180000#32 = some (320000000, 2) := by
    intro a b
    unfold source
    rw [h6]
    rfl
  refine ⟨⟨320000000, 2, hsource _ _, ?_⟩, ⟨320000000, 2, hsource _ _, ?_⟩, ⟨320000000, 2, hsource _ _, ?_⟩, ?_, rfl⟩
  · show 320000000 * 1 = 80000000 * (2 * (field v 16 4 + 1)); rw [e2]; decide
  · show 320000000 * 1 = 40000000 * (2 * ((field v 16 4 + 1) * (field v 4 4 + 1))); rw [e2, e3]; decide
  · show 320000000 * 3 = 80000000 * (2 * ((field v 16 4 + 1) * (field v 0 4 + 1))); rw [e2, e4]; decide
  · apply update_80
    show coreClock v _ _ 0x180000#32 = _
    unfold coreClock
    rw [hsource, e2]
    decide

/-- C79 is false of the code: nothing sets `SystemCoreClock`, which stays at 48 MHz, and the flash runs at 26 2/3 MHz. -/
theorem C79_full_statement_fails : ¬ C79_Statement ∧ ∃ t t' : Target, setup t = some t' ∧ t.SystemCoreClock = DEFAULT_SYSTEM_CLOCK ∧
    field t.clk.scg.CSR 24 4 ≠ 6 ∧ Follows t.clk.scg.CSR t'.clk.scg.RCCR t.clk.csr ∧ t'.SystemCoreClock = 48000000#32 := by
  obtain ⟨t', h⟩ := fromReset_setup
  have hrc : t'.clk.scg.RCCR = 0x6010012#32 := by
    obtain ⟨c1, c2, c3, -, -, h3, rfl⟩ := setup_form h
    obtain ⟨_, _, _, _, rfl⟩ := Normal_form h3
    rfl
  have hf : Follows fromReset.clk.scg.CSR t'.clk.scg.RCCR fromReset.clk.csr := by
    rw [hrc]
    intro v hv
    have hv : v ∈ [0x3000001#32, 0x6010012#32] := hv
    simp only [List.mem_cons, List.not_mem_nil, or_false] at hv
    rcases hv with rfl | rfl
    · exact ⟨_, .inl rfl, rfl, rfl, rfl, rfl⟩
    · exact ⟨_, .inr rfl, rfl, rfl, rfl, rfl⟩
  have hp := C79_frequencies_partial fromReset t' h (by decide) hf
  refine ⟨fun hs => ?_, fromReset, t', h, rfl, by decide, hf, hp.2.2.2.2⟩
  obtain ⟨⟨n, d, e, hn⟩, -, -, ⟨n', d', e', hn'⟩⟩ := hs fromReset t' h rfl (by decide) hf
  rw [e] at e'
  injection e' with e'
  injection e' with ea eb
  subst ea eb
  rw [hp.2.2.2.2, show fromReset.SystemCoreClock.toNat = 48000000 from rfl, hn] at hn'
  have hpos : 0 < d * coreDiv t'.clk.scg.CSR := by
    have hd : 0 < d := by
      unfold source at e
      split at e <;> first | (injection e with e; injection e with _ e; omega) | cases e
    exact Nat.mul_pos hd (Nat.succ_pos _)
  omega

/-! ## C80 -/

/-- The registers and the order of the writes are such that a clock is only started when the one it is made from is valid, is only
selected when it is valid itself, and is only configured while it is off. -/
def Ordered : Write → Prop
  | .SOSCDIV _ s => field s 0 1 = 0
  | .SOSCCFG _ s => field s 0 1 = 0
  | .SOSCCSR was _ => field was 23 1 = 0
  | .SPLLCSR _ v s => field v 0 1 = 1 → field s 24 1 = 1
  | .SPLLDIV _ s => field s 0 1 = 0
  | .SPLLCFG _ s => field s 0 1 = 0
  | .SIRCDIV _ => True
  | .RCCR v s => field v 24 4 = 6 → field s 24 1 = 1

/-- The property as stated in `properties.jsonl`. -/
def C80_Statement : Prop :=
  ∀ t t' : Target, setup t = some t' → ∀ w ∈ t'.clk.writes, w ∈ t.clk.writes ∨ Ordered w

/-- C80, partial: if the oscillator is off before the set-up (as it is after reset), clocks are set up in order. Missing: the
oscillator on before. -/
theorem C80_order_partial (t t' : Target) (h : setup t = some t') (hoff : field t.clk.SOSCCSR 0 1 = 0) :
    ∀ w ∈ t'.clk.writes, w ∈ t.clk.writes ∨ Ordered w := by
  obtain ⟨c1, c2, c3, h1, h2, h3, rfl⟩ := setup_form h
  obtain ⟨v1, w1, _, hv1, hw1, rfl⟩ := SOSC_form h1
  obtain ⟨v2, w2, s, _, hs, rfl⟩ := SPLL_form h2
  obtain ⟨_, _, _, _, rfl⟩ := Normal_form h3
  have hclear : field (v2 &&& ~~~ 0x1#32) 0 1 = 0 := by
    rw [field_and, show field (~~~ 0x1#32) 0 1 = 0 by decide, Nat.and_zero]
  have hv1' : field v1 23 1 = 0 := by
    have := mask_shift v1 0x800000#32 23 1 (by decide)
    rw [hv1] at this
    exact this.symm
  intro w hw
  have hw : w ∈ ((t.clk.writes ++ [Write.SOSCDIV 0x101#32 t.clk.SOSCCSR, .SOSCCFG 0x24#32 t.clk.SOSCCSR, .SOSCCSR v1 0x1#32]) ++
    [Write.SPLLCSR v2 (v2 &&& ~~~ 0x1#32) w1, .SPLLDIV (t.clk.scg.SPLLDIV ||| 0x302#32) (v2 &&& ~~~ 0x1#32),
      .SPLLCFG 0x180000#32 (v2 &&& ~~~ 0x1#32), .SPLLCSR w2 (w2 ||| 0x1#32) w1]) ++
    [Write.SIRCDIV 0x101#32, .RCCR 0x6010012#32 s] := hw
  simp only [List.mem_append, List.mem_cons, List.not_mem_nil, or_false] at hw
  rcases hw with ((h | rfl | rfl | rfl) | rfl | rfl | rfl | rfl) | rfl | rfl
  · exact .inl h
  · exact .inr hoff
  · exact .inr hoff
  · exact .inr hv1'
  · exact .inr fun _ => hw1
  · exact .inr hclear
  · exact .inr hclear
  · exact .inr fun _ => hw1
  · exact .inr trivial
  · exact .inr fun _ => hs

/-- C80, partial: and only then. -/
theorem C80_iff_partial (t t' : Target) (h : setup t = some t') (hw : t.clk.writes = []) :
    (∀ w ∈ t'.clk.writes, Ordered w) ↔ field t.clk.SOSCCSR 0 1 = 0 := by
  constructor
  · intro ho
    have hm : Write.SOSCCFG 0x24#32 t.clk.SOSCCSR ∈ t'.clk.writes := by
      obtain ⟨c1, c2, c3, h1, h2, h3, rfl⟩ := setup_form h
      obtain ⟨_, _, _, _, _, rfl⟩ := SOSC_form h1
      obtain ⟨_, _, _, _, _, rfl⟩ := SPLL_form h2
      obtain ⟨_, _, _, _, rfl⟩ := Normal_form h3
      exact List.mem_append_left _ (List.mem_append_left _ (List.mem_append_right _ (by simp)))
    exact ho _ hm
  · intro hoff w hm
    rcases C80_order_partial t t' h hoff w hm with h | h
    · rw [hw] at h; cases h
    · exact h

/-- C80, partial: and the oscillator is set to a crystal of medium frequency (up to 8 MHz) and switched on, the PLL is switched on,
and the last thing written is RCCR, selecting the PLL, after both were found valid. -/
theorem C80_last_partial (t t' : Target) (h : setup t = some t') :
    (field t'.clk.SOSCCFG 2 1 = 1 ∧ field t'.clk.SOSCCFG 4 2 = 2 ∧ ∃ was v, .SOSCCSR was v ∈ t'.clk.writes ∧ field v 0 1 = 1) ∧
    (∃ was v s, .SPLLCSR was v s ∈ t'.clk.writes ∧ field v 0 1 = 1) ∧
    field t'.clk.SOSCCSR 24 1 = 1 ∧ field t'.clk.scg.SPLLCSR 24 1 = 1 ∧ field t'.clk.scg.CSR 24 4 = 6 ∧
    ∃ v s, t'.clk.writes.getLast? = some (.RCCR v s) ∧ field v 24 4 = 6 ∧ field s 24 1 = 1 := by
  obtain ⟨c1, c2, c3, h1, h2, h3, rfl⟩ := setup_form h
  obtain ⟨v1, w1, _, hv1, hw1, rfl⟩ := SOSC_form h1
  obtain ⟨v2, w2, s, _, hs, rfl⟩ := SPLL_form h2
  obtain ⟨v, _, _, h6, rfl⟩ := Normal_form h3
  refine ⟨⟨show field 36#32 2 1 = 1 by decide, show field 36#32 4 2 = 2 by decide, v1, 0x1#32, ?_, by decide⟩,
    ⟨w2, w2 ||| 0x1#32, w1, ?_, ?_⟩, hw1, hs, h6, 0x6010012#32, s, ?_, by decide, hs⟩
  · exact List.mem_append_left _ (List.mem_append_left _ (List.mem_append_right _ (by simp)))
  · exact List.mem_append_left _ (List.mem_append_right _ (by simp))
  · rw [field_or, show field 0x1#32 0 1 = 1 by decide]
    have := Serial.field_lt w2 0 1
    have : field w2 0 1 = 0 ∨ field w2 0 1 = 1 := by omega
    rcases this with h | h <;> rw [h] <;> rfl
  show (_ ++ [Write.SIRCDIV 0x101#32, Write.RCCR 0x6010012#32 s]).getLast? = _
  simp

/-- C80 is false of the code: `SOSC_init_8MHz` writes SOSCCFG without turning the oscillator off first, so it does so while it is on
if it was on before. -/
theorem C80_full_statement_fails : ¬ C80_Statement := by
  intro h
  have hs : ∃ t', setup { fromReset with clk := { fromReset.clk with SOSCCSR := 0x1000001#32 } } = some t' := ⟨_, rfl⟩
  obtain ⟨t', ht⟩ := hs
  have hm : Write.SOSCCFG 0x24#32 0x1000001#32 ∈ t'.clk.writes := by
    obtain ⟨c1, c2, c3, h1, h2, h3, rfl⟩ := setup_form ht
    obtain ⟨_, _, _, _, _, rfl⟩ := SOSC_form h1
    obtain ⟨_, _, _, _, _, rfl⟩ := SPLL_form h2
    obtain ⟨_, _, _, _, rfl⟩ := Normal_form h3
    exact List.mem_append_left _ (List.mem_append_left _ (List.mem_append_right _ (by simp)))
  rcases h _ t' ht _ hm with h | h
  · cases h
  · revert h; unfold Ordered; decide

/-- From reset. -/
example : ∃ t', setup fromReset = some t' ∧ ∀ w ∈ t'.clk.writes, Ordered w := by
  obtain ⟨t', h⟩ := fromReset_setup
  refine ⟨t', h, fun w hw => ?_⟩
  rcases C80_order_partial _ _ h (by decide) w hw with h | h
  · cases h
  · exact h

end Uavcan.OnTarget
