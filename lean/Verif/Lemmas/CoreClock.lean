import Verif.Props.CoreClock

/-!
# What the functions that set up the clocks leave
-/

namespace Uavcan.CoreClock

open Spec

theorem bit_set (v m : BitVec 32) (k : Nat) (hm : m = BitVec.ofNat 32 (2 ^ k)) (h : ¬ (v &&& m) = 0#32) :
    field v k 1 = 1 := by
  have hlt := field_lt v k 1
  by_cases h0 : field v k 1 = 0
  · exfalso
    apply h
    apply BitVec.eq_of_getLsbD_eq
    intro i hi
    rw [BitVec.getLsbD_and, hm, BitVec.getLsbD_ofNat, Nat.testBit_two_pow]
    by_cases hik : k = i
    · subst hik
      have : v.getLsbD k = false := by
        unfold field at h0
        rw [BitVec.getLsbD, Nat.testBit_eq_decide_div_mod_eq]
        simp only [Nat.pow_one] at h0
        simp [h0]
      simp [this]
    · simp [hik]
  · omega

theorem SOSC_form {b b' : Board} (h : SOSC_init_8MHz b = some b') :
    ∃ v w rest, v &&& 0x800000#32 = 0#32 ∧ field w 24 1 = 1 ∧ b' = { b with
      SOSCDIV := 0x101#32, SOSCCFG := 0x24#32, SOSCCSR := w, sosccsr := rest,
      writes := b.writes ++ [.SOSCDIV 0x101#32 b.SOSCCSR, .SOSCCFG 0x24#32 b.SOSCCSR, .SOSCCSR v 0x1#32] } := by
  unfold SOSC_init_8MHz whileSOSCCSR at h
  obtain ⟨c, hc, h⟩ := Option.bind_eq_some_iff.1 h
  obtain ⟨⟨v, vs⟩, hv, rfl⟩ := Option.map_eq_some_iff.1 hc
  obtain ⟨⟨w, ws⟩, hw, rfl⟩ := Option.map_eq_some_iff.1 h
  have h1 := (firstNot_mem hv).2
  have h2 := (firstNot_mem hw).2
  simp only [ne_eq, decide_not, Bool.not_eq_false', decide_eq_true_eq, decide_eq_false_iff_not] at h1 h2
  refine ⟨v, w, ws, h1, bit_set w _ 24 (by decide) h2, ?_⟩
  simp

theorem SPLL_form {b b' : Board} (h : SPLL_init_160MHz b = some b') :
    ∃ v w s rest, field s 24 1 = 1 ∧ b' = { b with
      scg := { b.scg with SPLLCSR := s, SPLLDIV := b.scg.SPLLDIV ||| 0x302#32, SPLLCFG := 0x180000#32 }, spllcsr := rest,
      writes := b.writes ++ [.SPLLCSR v (v &&& ~~~ 0x1#32) b.SOSCCSR, .SPLLDIV (b.scg.SPLLDIV ||| 0x302#32) (v &&& ~~~ 0x1#32),
        .SPLLCFG 0x180000#32 (v &&& ~~~ 0x1#32), .SPLLCSR w (w ||| 0x1#32) b.SOSCCSR] } := by
  unfold SPLL_init_160MHz whileSPLLCSR readSPLLCSR at h
  obtain ⟨c, hc, h⟩ := Option.bind_eq_some_iff.1 h
  obtain ⟨⟨v1, vs⟩, hv, rfl⟩ := Option.map_eq_some_iff.1 hc
  simp only at h
  obtain ⟨⟨v, c⟩, hc, h⟩ := Option.bind_eq_some_iff.1 h
  cases vs with
  | nil => cases hc
  | cons x vs =>
  simp only [Option.some.injEq, Prod.mk.injEq] at hc
  obtain ⟨rfl, rfl⟩ := hc
  simp only at h
  obtain ⟨c, hc, h⟩ := Option.bind_eq_some_iff.1 h
  obtain ⟨⟨v2, ws⟩, hv2, rfl⟩ := Option.map_eq_some_iff.1 hc
  simp only at h
  obtain ⟨⟨w, c⟩, hc, h⟩ := Option.bind_eq_some_iff.1 h
  cases ws with
  | nil => cases hc
  | cons y ws =>
  simp only [Option.some.injEq, Prod.mk.injEq] at hc
  obtain ⟨rfl, rfl⟩ := hc
  simp only at h
  obtain ⟨⟨s, rest⟩, hs, rfl⟩ := Option.map_eq_some_iff.1 h
  have h2 := (firstNot_mem hs).2
  simp only [decide_eq_false_iff_not] at h2
  refine ⟨x, y, s, rest, bit_set s _ 24 (by decide) h2, ?_⟩
  simp

theorem Normal_form {b b' : Board} (h : NormalRUNmode_80MHz b = some b') :
    ∃ v rest, v ∈ b.csr ∧ field v 24 4 = 6 ∧ b' = { b with
      scg := { b.scg with CSR := v, RCCR := 0x6010012#32, SIRCDIV := 0x101#32 }, csr := rest,
      writes := b.writes ++ [.SIRCDIV 0x101#32, .RCCR 0x6010012#32 b.scg.SPLLCSR] } := by
  unfold NormalRUNmode_80MHz whileCSR at h
  obtain ⟨⟨v, vs⟩, hv, rfl⟩ := Option.map_eq_some_iff.1 h
  obtain ⟨hmem, hp⟩ := firstNot_mem hv
  have hm := mask_shift v 0xF000000#32 24 4 (by decide)
  simp only [ne_eq, decide_not, Bool.not_eq_false', decide_eq_true_eq] at hp
  rw [hp] at hm
  refine ⟨v, vs, hmem, hm.symm, ?_⟩
  simp

end Uavcan.CoreClock
