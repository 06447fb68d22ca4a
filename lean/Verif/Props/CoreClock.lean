import Verif.Model.CoreClock
import Verif.Spec.CoreClock

/-!
# C58, C63: clocks
-/

namespace Uavcan.CoreClock
open Spec

/-- A masked and shifted register is the field. -/
theorem mask_shift (v m : BitVec 32) (lo w : Nat) (hm : m.toNat >>> lo = 2 ^ w - 1) :
    ((v &&& m) >>> lo).toNat = field v lo w := by
  rw [BitVec.toNat_ushiftRight, BitVec.toNat_and, Nat.shiftRight_and_distrib, hm, Nat.and_two_pow_sub_one_eq_mod,
    Nat.shiftRight_eq_div_pow]
  rfl

theorem field_lt (v : BitVec 32) (lo w : Nat) : field v lo w < 2 ^ w := Nat.mod_lt _ (Nat.two_pow_pos w)

theorem udiv_eq (a b : BitVec 32) (n d : Nat) (ha : a.toNat = n) (hb : b.toNat = d) (hd : 0 < d) :
    ∃ q, udiv a b = .ok q ∧ q.toNat = n / d := by
  refine ⟨a / b, ?_, by rw [BitVec.toNat_udiv, ha, hb]⟩
  unfold udiv
  rw [if_neg]
  intro h0
  rw [h0] at hb
  simp at hb
  omega

theorem eq_field (v : BitVec 32) (n : Nat) (c : BitVec 32) (h : v.toNat = n) : v = c ↔ n = c.toNat := by
  rw [← BitVec.toNat_inj, h]

/-! ## C58 -/

/-- C58: for every value of the registers, `SystemCoreClockUpdate` is defined, and gives the frequency of the selected source
divided by the core divider, rounded down; it changes nothing if there is no such source. -/
theorem C58_core_clock (r : Scg) (old : BitVec 32) :
    ∃ new, SystemCoreClockUpdate r old = .ok new ∧
      match coreClock r.CSR r.SIRCCFG r.FIRCCFG r.SPLLCFG with
      | some f => new.toNat = f
      | none => new = old := by
  have hdv : (((r.CSR &&& 0xF0000#32) >>> 16) + 1#32).toNat = field r.CSR 16 4 + 1 := by
    have h1 := mask_shift r.CSR 0xF0000#32 16 4 (by decide)
    have h2 := field_lt r.CSR 16 4
    rw [BitVec.toNat_add, h1]
    simp only [BitVec.toNat_ofNat]
    omega
  have hscs := mask_shift r.CSR 0xF000000#32 24 4 (by decide)
  have hsi := mask_shift r.SIRCCFG 0x1#32 0 1 (by decide)
  have hfi := mask_shift r.FIRCCFG 0x3#32 0 2 (by decide)
  have hpos : 0 < field r.CSR 16 4 + 1 := Nat.succ_pos _
  unfold SystemCoreClockUpdate coreClock source
  simp only [eq_field _ _ _ hscs]
  by_cases h1 : field r.CSR 24 4 = 1
  · obtain ⟨q, e, hq⟩ := udiv_eq CPU_XTAL_CLK_HZ _ 8000000 _ (by decide) hdv hpos
    refine ⟨q, ?_, ?_⟩
    · rw [if_pos (by rw [h1]; rfl)]; exact e
    · simp only [h1, Option.map_some, hq, Nat.div_one]
  · rw [if_neg (by simpa using h1)]
    by_cases h2 : field r.CSR 24 4 = 2
    · rw [if_pos (by rw [h2]; rfl)]
      have hv : (if (r.SIRCCFG &&& 0x1#32) >>> 0 ≠ 0#32 then SIRC_HIGH else SIRC_LOW).toNat =
          if field r.SIRCCFG 0 1 = 1 then 8000000 else 2000000 := by
        have hlt := field_lt r.SIRCCFG 0 1
        by_cases h : field r.SIRCCFG 0 1 = 1
        · have : (r.SIRCCFG &&& 0x1#32) >>> 0 ≠ 0#32 := by
            intro hc; rw [hc] at hsi; simp at hsi; omega
          rw [if_pos this, if_pos h]; rfl
        · have : ¬ (r.SIRCCFG &&& 0x1#32) >>> 0 ≠ 0#32 := by
            rw [Decidable.not_not]
            apply BitVec.eq_of_toNat_eq
            rw [hsi]
            simp only [BitVec.toNat_ofNat]
            omega
          rw [if_neg this, if_neg h]; rfl
      obtain ⟨q, e, hq⟩ := udiv_eq _ _ _ _ hv hdv hpos
      refine ⟨q, e, ?_⟩
      simp only [h2, Option.map_some, hq, Nat.div_one]
    · rw [if_neg (by simpa using h2)]
      by_cases h3 : field r.CSR 24 4 = 3
      · rw [if_pos (by rw [h3]; rfl)]
        have hv : ∃ f, fircAt ((r.FIRCCFG &&& 0x3#32) >>> 0) = .ok f ∧ f.toNat = 48000000 + 4000000 * field r.FIRCCFG 0 2 := by
          have hlt := field_lt r.FIRCCFG 0 2
          unfold fircAt
          rw [hfi]
          have : field r.FIRCCFG 0 2 = 0 ∨ field r.FIRCCFG 0 2 = 1 ∨ field r.FIRCCFG 0 2 = 2 ∨ field r.FIRCCFG 0 2 = 3 := by
            omega
          rcases this with h | h | h | h <;> rw [h] <;> exact ⟨_, rfl, by decide⟩
        obtain ⟨f, ef, hf⟩ := hv
        obtain ⟨q, e, hq⟩ := udiv_eq f _ _ _ hf hdv hpos
        refine ⟨q, ?_, ?_⟩
        · simp only [ef, Outcome.ok_bind]; exact e
        · simp only [h3, Option.map_some, hq, Nat.div_one]
      · rw [if_neg (by simpa using h3)]
        by_cases h6 : field r.CSR 24 4 = 6
        · rw [if_pos (by rw [h6]; rfl)]
          have hp1 := mask_shift r.SPLLCFG 0x700#32 8 3 (by decide)
          have hp2 := field_lt r.SPLLCFG 8 3
          have hm1 := mask_shift r.SPLLCFG 0x1F0000#32 16 5 (by decide)
          have hm2 := field_lt r.SPLLCFG 16 5
          have hpd : ((((r.SPLLCFG &&& 0x700#32) >>> 8) + 1#32) * 2#32).toNat = (field r.SPLLCFG 8 3 + 1) * 2 := by
            rw [BitVec.toNat_mul, BitVec.toNat_add, hp1]
            simp only [BitVec.toNat_ofNat]
            omega
          have hmu : (CPU_XTAL_CLK_HZ * (((r.SPLLCFG &&& 0x1F0000#32) >>> 16) + 16#32)).toNat =
              8000000 * (field r.SPLLCFG 16 5 + 16) := by
            rw [BitVec.toNat_mul, BitVec.toNat_add, hm1]
            simp only [BitVec.toNat_ofNat, CPU_XTAL_CLK_HZ]
            omega
          obtain ⟨o, eo, ho⟩ := udiv_eq _ _ _ _ hmu hpd (by omega)
          obtain ⟨q, e, hq⟩ := udiv_eq o _ _ _ ho hdv hpos
          refine ⟨q, ?_, ?_⟩
          · simp only [eo, Outcome.ok_bind]; exact e
          · simp only [h6, Option.map_some, hq]
        · rw [if_neg (by simpa using h6)]
          refine ⟨old, rfl, ?_⟩
          split
          · rename_i f hf
            split at hf
            · exact absurd ‹_› h1
            · exact absurd ‹_› h2
            · exact absurd ‹_› h3
            · exact absurd ‹_› h6
            · cases hf
          · rfl

/-- C58: rounding down twice is the same as rounding down once, so the value is the largest whole number of Hz that is not more
than the exact frequency. -/
theorem C58_rounding (r : Scg) (old new : BitVec 32) (h : SystemCoreClockUpdate r old = .ok new)
    (hs : (source r.CSR r.SIRCCFG r.FIRCCFG r.SPLLCFG).isSome) : IsFloorClock r.CSR r.SIRCCFG r.FIRCCFG r.SPLLCFG new.toNat := by
  obtain ⟨new', e, hn⟩ := C58_core_clock r old
  rw [h] at e
  injection e with e
  subst e
  unfold coreClock at hn
  cases hsrc : source r.CSR r.SIRCCFG r.FIRCCFG r.SPLLCFG with
  | none => rw [hsrc] at hs; cases hs
  | some nd =>
    obtain ⟨n, d⟩ := nd
    rw [hsrc] at hn
    simp only [Option.map_some] at hn
    have hd : 0 < d := by
      unfold source at hsrc
      split at hsrc
      · injection hsrc with hsrc; injection hsrc with _ hsrc; omega
      · injection hsrc with hsrc; injection hsrc with _ hsrc; omega
      · injection hsrc with hsrc; injection hsrc with _ hsrc; omega
      · injection hsrc with hsrc; injection hsrc with _ hsrc; omega
      · cases hsrc
    have hk : 0 < d * (field r.CSR 16 4 + 1) := Nat.mul_pos hd (Nat.succ_pos _)
    refine ⟨n, d, hsrc, ?_, ?_⟩
    · rw [hn, Nat.div_div_eq_div_mul]; exact Nat.div_mul_le_self _ _
    · rw [hn, Nat.div_div_eq_div_mul, Nat.add_mul, Nat.one_mul]
      exact Nat.lt_div_mul_add hk

/-- SPLL, 8 MHz · 40 / 2 / 2, as NormalRUNmode_80MHz sets it; and an odd one, 8 MHz · 47 / 14 / 13. -/
example : SystemCoreClockUpdate ⟨0x6010012#32, 0, 0, 0, 0, 0, 0, 0x180000#32⟩ 48000000#32 = .ok 80000000#32 ∧
    SystemCoreClockUpdate ⟨0x60C0000#32, 0, 0, 0, 0, 0, 0, 0x1F0600#32⟩ 48000000#32 = .ok 2065934#32 := by decide

/-! ## C63 -/

/-- The hardware applies RCCR as a whole: what is read from CSR after the write has the source and the divider from before, or those
written. -/
def FollowsRCCR (before written : BitVec 32) (reads : List (BitVec 32)) : Prop :=
  ∀ v ∈ reads, (field v 24 4 = field before 24 4 ∧ field v 16 4 = field before 16 4) ∨
    (field v 24 4 = field written 24 4 ∧ field v 16 4 = field written 16 4)

theorem firstNot_mem {p : BitVec 32 → Bool} {vs rest : List (BitVec 32)} {v : BitVec 32} (h : firstNot p vs = some (v, rest)) :
    v ∈ vs ∧ p v = false := by
  induction vs with
  | nil => cases h
  | cons w ws ih =>
    unfold firstNot at h
    split at h
    · exact ⟨List.mem_cons_of_mem _ (ih h).1, (ih h).2⟩
    · rename_i hp
      injection h with h
      injection h with h _
      subst h
      exact ⟨List.mem_cons_self .., by simpa using hp⟩

/-- C63: after `SPLL_init_160MHz` and `NormalRUNmode_80MHz` have returned, whatever the registers were before (except that the PLL
was not the system clock) and whatever was read from the status registers meanwhile, `SystemCoreClockUpdate` gives 80 MHz. -/
theorem C63_80MHz (b b1 b2 : Board) (old : BitVec 32) (h1 : SPLL_init_160MHz b = some b1)
    (h2 : NormalRUNmode_80MHz b1 = some b2) (hsrc : field b.scg.CSR 24 4 ≠ 6)
    (hhw : FollowsRCCR b.scg.CSR b2.scg.RCCR b.csr) :
    SystemCoreClockUpdate b2.scg old = .ok 80000000#32 := by
  -- what the first function leaves
  have e1 : b1.scg.SPLLCFG = 0x180000#32 ∧ b1.scg.CSR = b.scg.CSR ∧ b1.csr = b.csr := by
    unfold SPLL_init_160MHz at h1
    cases ha : whileSPLLCSR (fun v => v &&& 0x800000#32 ≠ 0#32) b with
    | none => rw [ha] at h1; cases h1
    | some c1 =>
      rw [ha] at h1
      simp only [Option.bind_eq_bind, Option.bind_some] at h1
      cases hb : readSPLLCSR c1 with
      | none => rw [hb] at h1; cases h1
      | some c2 =>
        obtain ⟨v2, c2⟩ := c2
        rw [hb] at h1
        simp only [Option.bind_some] at h1
        obtain ⟨c3, hc, h1⟩ := Option.bind_eq_some_iff.1 h1
        obtain ⟨⟨v4, c4⟩, hd, h1⟩ := Option.bind_eq_some_iff.1 h1
        simp only at h1
        have k1 : c1.scg.CSR = b.scg.CSR ∧ c1.csr = b.csr := by
          unfold whileSPLLCSR at ha
          obtain ⟨w, _, rfl⟩ := Option.map_eq_some_iff.1 ha
          exact ⟨rfl, rfl⟩
        have k2 : c2.scg.CSR = c1.scg.CSR ∧ c2.csr = c1.csr := by
          unfold readSPLLCSR at hb
          split at hb
          · cases hb
          · injection hb with hb; injection hb with _ hb; subst hb; exact ⟨rfl, rfl⟩
        have k3 : c3.scg.SPLLCFG = 0x180000#32 ∧ c3.scg.CSR = c2.scg.CSR ∧ c3.csr = c2.csr := by
          unfold whileSPLLCSR at hc
          obtain ⟨w, _, rfl⟩ := Option.map_eq_some_iff.1 hc
          exact ⟨show (24#32 <<< 16) &&& 0x1F0000#32 = 0x180000#32 by decide, rfl, rfl⟩
        have k4 : c4.scg.SPLLCFG = c3.scg.SPLLCFG ∧ c4.scg.CSR = c3.scg.CSR ∧ c4.csr = c3.csr := by
          unfold readSPLLCSR at hd
          split at hd
          · cases hd
          · injection hd with hd; injection hd with _ hd; subst hd; exact ⟨rfl, rfl, rfl⟩
        unfold whileSPLLCSR at h1
        obtain ⟨w, _, rfl⟩ := Option.map_eq_some_iff.1 h1
        refine ⟨?_, ?_, ?_⟩
        · show c4.scg.SPLLCFG = _; rw [k4.1, k3.1]
        · show c4.scg.CSR = _; rw [k4.2.1, k3.2.1, k2.1, k1.1]
        · show c4.csr = _; rw [k4.2.2, k3.2.2, k2.2, k1.2]
  unfold NormalRUNmode_80MHz whileCSR at h2
  obtain ⟨⟨v, vs⟩, hv, rfl⟩ := Option.map_eq_some_iff.1 h2
  obtain ⟨hmem, hp⟩ := firstNot_mem hv
  have hscs : field v 24 4 = 6 := by
    have hm := mask_shift v 0xF000000#32 24 4 (by decide)
    simp only [ne_eq, decide_not, Bool.not_eq_false', decide_eq_true_eq] at hp
    rw [hp] at hm
    exact hm.symm
  have hdiv : field v 16 4 = 1 := by
    have hm : v ∈ b.csr := by rw [← e1.2.2]; exact hmem
    rcases hhw v hm with h | h
    · rw [hscs] at h; exact absurd h.1.symm hsrc
    · rw [h.2]
      show field (((6#32 <<< 24) &&& 0xF000000#32) ||| ((1#32 <<< 16) &&& 0xF0000#32) |||
        ((1#32 <<< 4) &&& 0xF0#32) ||| ((2#32 <<< 0) &&& 0xF#32)) 16 4 = 1
      decide
  obtain ⟨new, e, hn⟩ := C58_core_clock _ old
  rw [e]
  congr 1
  apply BitVec.eq_of_toNat_eq
  have hcc : coreClock v b1.scg.SIRCCFG b1.scg.FIRCCFG b1.scg.SPLLCFG = some 80000000 := by
    rw [e1.1]
    unfold coreClock source
    rw [hscs, hdiv]
    show some (8000000 * (field 0x180000#32 16 5 + 16) / ((field 0x180000#32 8 3 + 1) * 2) / (1 + 1)) = some 80000000
    decide
  have hn' : match coreClock v b1.scg.SIRCCFG b1.scg.FIRCCFG b1.scg.SPLLCFG with
      | some f => new.toNat = f
      | none => new = old := hn
  rw [hcc] at hn'
  exact hn'

/-- The bit SPLLEN. -/
def Enabled (v : BitVec 32) : Prop := field v 0 1 = 1

/-- C63: the PLL is only configured while it is disabled. -/
theorem C63_configured_disabled (b b1 : Board) (h1 : SPLL_init_160MHz b = some b1) (hw : b.writes = []) :
    (∀ v s, Write.SPLLCFG v s ∈ b1.writes → ¬ Enabled s ∧ v = 0x180000#32) ∧
    (∀ v s, Write.SPLLDIV v s ∈ b1.writes → ¬ Enabled s) ∧
    (∃ w v o, b1.writes.getLast? = some (Write.SPLLCSR w v o) ∧ Enabled v) := by
  have hclear : ∀ v : BitVec 32, ¬ Enabled (v &&& ~~~ 0x1#32) := by
    intro v
    have h := mask_shift (v &&& ~~~ 0x1#32) 0x1#32 0 1 (by decide)
    unfold Enabled
    rw [← h, BitVec.and_assoc]
    simp
  have hset : ∀ v : BitVec 32, Enabled (v ||| 0x1#32) := by
    intro v
    unfold Enabled field
    rw [Nat.pow_zero, Nat.div_one, BitVec.toNat_or]
    simp
  unfold SPLL_init_160MHz at h1
  obtain ⟨c1, ha, h1⟩ := Option.bind_eq_some_iff.1 h1
  obtain ⟨⟨v2, c2⟩, hb, h1⟩ := Option.bind_eq_some_iff.1 h1
  simp only at h1
  obtain ⟨c3, hc, h1⟩ := Option.bind_eq_some_iff.1 h1
  obtain ⟨⟨v4, c4⟩, hd, h1⟩ := Option.bind_eq_some_iff.1 h1
  simp only at h1
  have k1 : c1.writes = [] := by
    unfold whileSPLLCSR at ha
    obtain ⟨w, _, rfl⟩ := Option.map_eq_some_iff.1 ha
    exact hw
  have k2 : c2.writes = [] := by
    unfold readSPLLCSR at hb
    split at hb
    · cases hb
    · injection hb with hb; injection hb with _ hb; subst hb; exact k1
  unfold whileSPLLCSR at hc
  obtain ⟨w3, _, rfl⟩ := Option.map_eq_some_iff.1 hc
  have k4 := c4.writes
  unfold readSPLLCSR at hd
  split at hd
  · cases hd
  injection hd with hd
  injection hd with _ hd
  subst hd
  unfold whileSPLLCSR at h1
  obtain ⟨w, _, rfl⟩ := Option.map_eq_some_iff.1 h1
  simp only [k2, List.nil_append, List.cons_append]
  refine ⟨?_, ?_, ?_⟩
  · intro v s hm
    simp only [List.mem_cons, List.not_mem_nil, or_false, Write.SPLLCFG.injEq, reduceCtorEq, false_or] at hm
    obtain ⟨rfl, rfl⟩ := hm
    exact ⟨hclear _, by decide⟩
  · intro v s hm
    simp only [List.mem_cons, List.not_mem_nil, or_false, Write.SPLLDIV.injEq, reduceCtorEq, false_or] at hm
    obtain ⟨rfl, rfl⟩ := hm
    exact hclear _
  · exact ⟨_, _, _, rfl, hset _⟩

/-- From reset (FIRC is the clock), with the PLL taking a while to become valid and the switch taking a while too. -/
example : ∃ b1 b2, SPLL_init_160MHz ⟨⟨0x3000001#32, 0x3000001#32, 0, 1, 0, 0, 0, 0⟩, [], [0, 0, 0, 0, 1#32, 0x1000001#32],
      [0x3000001#32, 0x6010012#32], 0, 0, 0, []⟩ = some b1 ∧ NormalRUNmode_80MHz b1 = some b2 ∧
    FollowsRCCR 0x3000001#32 b2.scg.RCCR [0x3000001#32, 0x6010012#32] := by
  refine ⟨_, _, rfl, rfl, ?_⟩
  intro v hv
  simp only [List.mem_cons, List.not_mem_nil, or_false] at hv
  rcases hv with rfl | rfl
  · exact .inl ⟨rfl, rfl⟩
  · exact .inr (by decide)

end Uavcan.CoreClock
