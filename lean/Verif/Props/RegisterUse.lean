import Verif.Props.Registers
import Verif.Lemmas.OnTarget

/-!
# C101: setting fields without clearing them
-/

namespace Uavcan.Registers
open Uavcan.Spec CoreClock OnTarget

/-- The property as stated in `properties.jsonl`. -/
def C101_Statement : Prop :=
  ∀ p ∈ peripherals, ∀ r ∈ registers p.2, ∀ f ∈ r.fields, ∀ x v : BitVec 32,
    bitField (v ||| f.put x) f.shift f.width = x.toNat % 2 ^ f.width

theorem bitField_lt (v : BitVec 32) (s w : Nat) : bitField v s w < 2 ^ w := Nat.mod_lt _ (Nat.two_pow_pos _)

theorem bitField_or (v u : BitVec 32) (s w : Nat) : bitField (v ||| u) s w = bitField v s w ||| bitField u s w := by
  apply Nat.eq_of_testBit_eq
  intro i
  simp only [Nat.testBit_or, bitField_bit, BitVec.getLsbD_or]
  by_cases h : i < w <;> simp [h]

theorem put_eq_set {f : Field} (x : BitVec 32) : f.put x = f.set x 0#32 := by
  simp only [Field.set, BitVec.zero_and, BitVec.zero_or]

theorem bitField_zero (s w : Nat) : bitField 0#32 s w = 0 := by simp [bitField]

theorem bitField_put {bytes : Nat} {f : Field} (h : f.Good bytes) (x : BitVec 32) :
    bitField (f.put x) f.shift f.width = x.toNat % 2 ^ f.width := by rw [put_eq_set, set_self h]

/-- C101, partial: `R |= F(x)` leaves the bits of the old value and of `x` in the field, so it holds `x` exactly if the old value
has no bits that `x` has not. Missing: other old values, for which the statement is false. -/
theorem C101_or_partial (p : String × List Member) (hp : p ∈ peripherals) (r : Placed) (hr : r ∈ registers p.2) (f : Field)
    (hf : f ∈ r.fields) (x v : BitVec 32) :
    bitField (v ||| f.put x) f.shift f.width = bitField v f.shift f.width ||| x.toNat % 2 ^ f.width ∧
    (bitField (v ||| f.put x) f.shift f.width = x.toNat % 2 ^ f.width ↔
      ∀ i, (bitField v f.shift f.width).testBit i = true → x.getLsbD i = true) := by
  have h := good_of_mem hp hr hf
  have e : bitField (v ||| f.put x) f.shift f.width = bitField v f.shift f.width ||| x.toNat % 2 ^ f.width := by
    rw [bitField_or, bitField_put h]
  refine ⟨e, ?_⟩
  rw [e]
  constructor
  · intro h2 i hi
    have := congrArg (Nat.testBit · i) h2
    simp only [Nat.testBit_or, hi, Bool.true_or, Nat.testBit_mod_two_pow, BitVec.testBit_toNat] at this
    have := this.symm
    rw [Bool.and_eq_true] at this
    exact this.2
  · intro h2
    apply Nat.eq_of_testBit_eq
    intro i
    simp only [Nat.testBit_or, Nat.testBit_mod_two_pow, BitVec.testBit_toNat]
    cases hb : (bitField v f.shift f.width).testBit i with
    | false => rfl
    | true =>
      have hi : i < f.width := by
        rw [bitField_bit, Bool.and_eq_true] at hb; exact of_decide_eq_true hb.1
      simp [h2 i hb, hi]

/-- C101, partial: other fields of the register are not changed by it; and after `R &= ~F_MASK` it does set the field to `x`. -/
theorem C101_cleared_partial (p : String × List Member) (hp : p ∈ peripherals) (r : Placed) (hr : r ∈ registers p.2) (f : Field)
    (hf : f ∈ r.fields) (x v : BitVec 32) :
    (∀ i, i < f.shift ∨ f.shift + f.width ≤ i → bitField (v ||| f.put x) i 1 = bitField v i 1) ∧
    bitField ((v &&& ~~~ BitVec.ofNat 32 f.mask) ||| f.put x) f.shift f.width = x.toNat % 2 ^ f.width := by
  have h := good_of_mem hp hr hf
  refine ⟨fun i hi => ?_, set_self h x v⟩
  rw [bitField_or, put_eq_set, set_other h x _ (by omega), bitField_zero, Nat.or_zero]

/-- C101, partial: `SPLL_init_160MHz` leaves SPLLDIV1 at 2 (divide by 2, as the comment says) exactly if it was 0 or 2 before, and
SPLLDIV2 at 3 exactly if it was below 4. -/
theorem C101_spll_partial (b b' : Board) (h : SPLL_init_160MHz b = some b') :
    (bitField b'.scg.SPLLDIV 0 3 = 2 ↔ bitField b.scg.SPLLDIV 0 3 = 0 ∨ bitField b.scg.SPLLDIV 0 3 = 2) ∧
    (bitField b'.scg.SPLLDIV 8 3 = 3 ↔ bitField b.scg.SPLLDIV 8 3 < 4) := by
  obtain ⟨_, _, _, _, _, rfl⟩ := SPLL_form h
  simp only [bitField_or]
  have h1 := bitField_lt b.scg.SPLLDIV 0 3
  have h2 := bitField_lt b.scg.SPLLDIV 8 3
  generalize bitField b.scg.SPLLDIV 0 3 = m at h1
  generalize bitField b.scg.SPLLDIV 8 3 = n at h2
  have e1 : bitField 0x302#32 0 3 = 2 := by decide
  have e2 : bitField 0x302#32 8 3 = 3 := by decide
  rw [e1, e2]
  have k1 : ∀ m < 2 ^ 3, m ||| 2 = 2 ↔ m = 0 ∨ m = 2 := by decide
  have k2 : ∀ n < 2 ^ 3, n ||| 3 = 3 ↔ n < 4 := by decide
  exact ⟨k1 m h1, k2 n h2⟩

/-- C101: what the set-up assigns (`R = F(x) | …`) is, with the names of the header, what the comments say, and no other field is
set: clocks_and_modes.c:45–47, 77, 100, 106–109, LPUART.c:45–46, 56–57, main.cpp:69. -/
theorem C101_assigned (t t' : Target) (h : setup t = some t') :
    decode "SCG" "SOSCDIV" t'.clk.SOSCDIV = [("SOSCDIV1", 1), ("SOSCDIV2", 1)] ∧
    decode "SCG" "SOSCCFG" t'.clk.SOSCCFG = [("EREFS", 1), ("RANGE", 2)] ∧
    decode "SCG" "SPLLCFG" t'.clk.scg.SPLLCFG = [("MULT", 24)] ∧
    decode "SCG" "SIRCDIV" t'.clk.scg.SIRCDIV = [("SIRCDIV1", 1), ("SIRCDIV2", 1)] ∧
    decode "SCG" "RCCR" t'.clk.scg.RCCR = [("DIVSLOW", 2), ("DIVBUS", 1), ("DIVCORE", 1), ("SCS", 6)] ∧
    decode "LPUART" "BAUD" t'.BAUD = [("SBR", 3), ("OSR", 22)] ∧
    decode "LPUART" "CTRL" t'.CTRL = [("RE", 1), ("TE", 1)] ∧
    ∃ was cs, t'.wdog = was ++ [cs] ∧ ∃ v, cs = .writeCS v ∧ decode "WDOG" "CS" v = [("CLK", 1), ("CMD32EN", 1)] := by
  obtain ⟨c1, c2, c3, h1, h2, h3, rfl⟩ := setup_form h
  obtain ⟨_, _, _, _, _, rfl⟩ := SOSC_form h1
  obtain ⟨_, _, _, _, _, rfl⟩ := SPLL_form h2
  obtain ⟨_, _, _, _, rfl⟩ := Normal_form h3
  refine ⟨?_, ?_, ?_, ?_, ?_, ?_, ?_, t.wdog ++ [.writeCNT 0xD928C520#32, .writeTOVAL 0x0000FFFF#32], .writeCS 0x00002100#32, ?_,
    0x00002100#32, rfl, ?_⟩
  · show decode "SCG" "SOSCDIV" 0x101#32 = _; decide +kernel
  · show decode "SCG" "SOSCCFG" 0x24#32 = _; decide +kernel
  · show decode "SCG" "SPLLCFG" 0x180000#32 = _; decide +kernel
  · show decode "SCG" "SIRCDIV" 0x101#32 = _; decide +kernel
  · show decode "SCG" "RCCR" 0x6010012#32 = _; decide +kernel
  · show decode "LPUART" "BAUD" (((3#32 <<< 0) &&& 0x1FFF#32) ||| ((22#32 <<< 24) &&& 0x1F000000#32)) = _; decide +kernel
  · show decode "LPUART" "CTRL" (0x40000#32 ||| 0x80000#32) = _; decide +kernel
  · show t.wdog ++ Boot.WDOG_disable = _
    simp [Boot.WDOG_disable]
  · decide +kernel

theorem or_eq_set (x m : BitVec 32) : x ||| m = (x &&& ~~~ m) ||| m := by
  apply BitVec.eq_of_getLsbD_eq
  intro i hi
  simp only [BitVec.getLsbD_or, BitVec.getLsbD_and, BitVec.getLsbD_not, hi, decide_true, Bool.true_and]
  cases x.getLsbD i <;> cases m.getLsbD i <;> rfl

/-- C101: the same for the start-up code: `SystemInit` opens the coprocessors of the FPU and leaves their other bits, turns the
watchdog off with updates allowed; `SystemSoftwareReset` writes the key and the request and leaves the other bits. -/
theorem C101_startup (e : Boot.Env) (c : Boot.Cpu) :
    (e.enableFpu = true → (Boot.SystemInit e c).CPACR = c.CPACR ||| 0xF00000#32 ∧
      decode "S32_SCB" "CPACR" 0xF00000#32 = [("CP10", 3), ("CP11", 3)]) ∧
    (∃ v, Boot.WdogAccess.writeCS v ∈ (Boot.SystemInit e c).wdog ∧
      decode "WDOG" "CS" v = [("UPDATE", 1), ("CLK", 1), ("CMD32EN", 1)]) ∧
    (∃ key req, fieldOf "S32_SCB" "AIRCR" "VECTKEY" = some key ∧ fieldOf "S32_SCB" "AIRCR" "SYSRESETREQ" = some req ∧
      (Boot.SystemSoftwareReset c).AIRCR = req.set 1#32 (key.set 0x05FA#32 c.AIRCR)) := by
  refine ⟨fun he => ?_, ⟨(1#32 <<< 13) ||| (1#32 <<< 8) ||| (0#32 <<< 7) ||| (1#32 <<< 5), ?_, by decide +kernel⟩, ?_⟩
  · refine ⟨?_, by decide +kernel⟩
    simp only [Boot.SystemInit, he, if_true]
    rfl
  · simp only [Boot.SystemInit]
    exact List.mem_append_right _ (by simp)
  · refine ⟨_, _, (by decide +kernel : fieldOf "S32_SCB" "AIRCR" "VECTKEY" = some ⟨"VECTKEY", 0xFFFF0000, 16, 16, 32, 0⟩),
      (by decide +kernel : fieldOf "S32_SCB" "AIRCR" "SYSRESETREQ" = some ⟨"SYSRESETREQ", 0x4, 2, 1, 32, 0⟩), ?_⟩
    have e : (⟨"SYSRESETREQ", 0x4, 2, 1, 32, 0⟩ : Field).put 1#32 = 0x4#32 := by decide
    have k : (⟨"VECTKEY", 0xFFFF0000, 16, 16, 32, 0⟩ : Field).put 0x05FA#32 = (0x05FA#32 <<< 16) &&& 0xFFFF0000#32 := by decide
    have q : (1#32 <<< 2) &&& 0x4#32 = 0x4#32 := by decide
    simp only [Boot.SystemSoftwareReset, Field.set, e, k, q]
    exact or_eq_set _ _

/-- C101 is false of the idiom: some field of some register does not hold 2 after 2 was or-ed to 1. -/
theorem C101_full_statement_fails : ¬ C101_Statement := by
  intro h
  have w : (peripherals.any fun p => (registers p.2).any fun r => r.fields.any fun f =>
      bitField (f.put 1#32 ||| f.put 2#32) f.shift f.width != (2#32).toNat % 2 ^ f.width) = true := by decide +kernel
  simp only [List.any_eq_true, bne_iff_ne] at w
  obtain ⟨p, hp, r, hr, f, hf, hw⟩ := w
  exact hw (h p hp r hr f hf 2#32 _)

/-- A pin at alternative 1 (GPIO): `PORTC->PCR[6] |= PORT_PCR_MUX(2)`, main.cpp:61, makes it alternative 3. -/
example : (fieldOf "PORT" "PCR" "MUX").map (fun f => f.get (0x100#32 ||| f.put 2#32)) = some 3#32 := by decide +kernel

/-- And at 0, as after reset, alternative 2. -/
example : (fieldOf "PORT" "PCR" "MUX").map (fun f => f.get (0x3#32 ||| f.put 2#32)) = some 2#32 := by decide +kernel

end Uavcan.Registers
