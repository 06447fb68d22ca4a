import Verif.Lemmas.BigEndian
import Verif.Props.CopyBits

/-!
# C81, C82: bit copies as shifts of arrays

The second reading of the bit copies, the one the validation suite shows in its comments and expects in its tests: the length is that of
the arrays, the first `offset / 8` bytes of both arrays are skipped, and the rest is a number, most significant byte first, that is shifted by
`offset % 8`.
-/

namespace Uavcan.CopyBits
open Spec

theorem count_whole {off m : Nat} (h : off < 8 * m) : count off (8 * m) = 8 * m - off := by
  by_cases h8 : off + 8 < 8 * m
  · have := (C34_count_partial [] [] off (8 * m) (by decide)).2.2.2 h8
    omega
  · rw [count_last (by omega)]; omega

theorem touched_whole {off m j : Nat} (h : off < 8 * m) : Touched off (8 * m) j ↔ off / 8 ≤ j ∧ j < m := by
  unfold Touched; omega

/-! ## C81 -/

/-- The property as stated in `properties.jsonl`. -/
def C81_Statement : Prop :=
  ∀ (src dst : List Byte) (off m : Nat), off < 8 * m → m ≤ src.length → m ≤ dst.length → dst.length < 2 ^ 61 →
    ∃ dst', copyBitsAlignedToUnaligned (some src) (some dst) off (8 * m) = .ok (8 * m - off, some dst') ∧
      dst'.length = dst.length ∧ (∀ j, j < off / 8 ∨ m ≤ j → dst'.getD j 0 = dst.getD j 0) ∧
      ShiftedLeft (off % 8) (part (off / 8) m src) (part (off / 8) m dst) (part (off / 8) m dst')

/-- C81, partial: the function returns the number of bits from the offset on, touches no byte outside, and shifts exactly when in every byte of
the destination but the last, the bits below `offset % 8` are set only where the bits moved in from the next byte of the source are.
Missing: other contents of the destination, with which the moved bits are or-ed. -/
theorem C81_shift_iff_partial (src dst : List Byte) (off m : Nat) (h : off < 8 * m) (hs : m ≤ src.length) (hd : m ≤ dst.length)
    (hbig : dst.length < 2 ^ 61) :
    ∃ dst', copyBitsAlignedToUnaligned (some src) (some dst) off (8 * m) = .ok (8 * m - off, some dst') ∧
      dst'.length = dst.length ∧ (∀ j, j < off / 8 ∨ m ≤ j → dst'.getD j 0 = dst.getD j 0) ∧
      (ShiftedLeft (off % 8) (part (off / 8) m src) (part (off / 8) m dst) (part (off / 8) m dst') ↔
        ∀ j b, off / 8 ≤ j → j + 1 < m → b < off % 8 → (dst.getD j 0).getLsbD b = true →
          (src.getD (j + 1) 0).getLsbD (8 - off % 8 + b) = true) := by
  have ht : ∀ j, Touched off (8 * m) j → j < src.length ∧ j < dst.length := by
    intro j hj; rw [touched_whole h] at hj; omega
  obtain ⟨n, dst', hok, hlen, hbits⟩ := C31_closed_form_partial (by omega) ht hbig
  have hn := (C34_count_partial src dst off (8 * m) hbig).2.1 n _ hok (by omega)
  rw [count_whole h] at hn
  rw [hn.2] at hok
  refine ⟨dst', hok, hlen, ?_, ?_⟩
  · intro j hj
    refine BitVec.eq_of_getLsbD_eq fun b hb => ?_
    have hnt : ¬ Touched off (8 * m) j := by rw [touched_whole h]; omega
    rw [hbits j b hb, if_neg (fun x => hnt x.1), if_neg (fun x => hnt x.1)]
  · have hdl : m ≤ dst'.length := by omega
    rw [shiftedLeft_iff (n := m - off / 8) (by omega) (by omega) (part_length hs) (part_length hd) (part_length hdl)]
    constructor
    · intro hsh j b hj hjm hb hdb
      have := hsh (j - off / 8) b (by omega) (by omega)
      rw [part_getD (by omega), if_neg (by omega), if_pos (by omega), part_getD (by omega),
        show off / 8 + (j - off / 8) = j by omega, show off / 8 + (j - off / 8 + 1) = j + 1 by omega, hbits j b (by omega),
        if_neg (by omega), if_pos ⟨(touched_whole h).2 (by omega), by omega⟩, hdb, Bool.true_or] at this
      exact this.symm
    · intro hc k b hk hb
      have htk : Touched off (8 * m) (off / 8 + k) := (touched_whole h).2 (by omega)
      rw [part_getD (by omega), hbits _ b hb]
      by_cases h1 : off % 8 ≤ b
      · rw [if_pos ⟨htk, h1⟩, if_pos h1, part_getD (by omega)]
      · rw [if_neg (fun x => h1 x.2), if_neg h1]
        by_cases h2 : k + 1 < m - off / 8
        · rw [if_pos ⟨htk, by omega⟩, if_pos h2, part_getD (by omega), ← Nat.add_assoc]
          cases hx : (dst.getD (off / 8 + k) 0).getLsbD b
          · simp
          · rw [hc _ b (by omega) (by omega) (by omega) hx]; simp
        · rw [if_neg (by omega), if_neg h2, part_getD (by omega)]

/-- C81, partial: in particular the copy is right if the bits below `offset % 8` are zero in every byte of the destination but the last, for
instance in a destination filled with zeros, and if the offset is a whole number of bytes. -/
theorem C81_clean_partial (src dst : List Byte) (off m : Nat) (h : off < 8 * m) (hs : m ≤ src.length) (hd : m ≤ dst.length)
    (hbig : dst.length < 2 ^ 61) (hz : ∀ j, off / 8 ≤ j → j + 1 < m → (dst.getD j 0).toNat % 2 ^ (off % 8) = 0) :
    ∃ dst', copyBitsAlignedToUnaligned (some src) (some dst) off (8 * m) = .ok (8 * m - off, some dst') ∧
      ShiftedLeft (off % 8) (part (off / 8) m src) (part (off / 8) m dst) (part (off / 8) m dst') := by
  obtain ⟨dst', h1, -, -, h2⟩ := C81_shift_iff_partial src dst off m h hs hd hbig
  refine ⟨dst', h1, h2.2 fun j b hj hjm hb hdb => ?_⟩
  have := congrArg (Nat.testBit · b) (hz j hj hjm)
  simp only [Nat.testBit_mod_two_pow, hb, decide_true, Bool.true_and, Nat.zero_testBit] at this
  rw [BitVec.getLsbD, this] at hdb
  exact absurd hdb (by decide)

/-- C81 is false of the code: a one left in the destination stays. -/
theorem C81_full_statement_fails : ¬ C81_Statement := by
  intro hst
  obtain ⟨d, h1, -, -, h2⟩ := hst [0, 0] [1, 0] 1 2 (by decide) (by decide) (by decide) (by decide)
  have : copyBitsAlignedToUnaligned (some [0, 0]) (some [1, 0]) 1 (8 * 2) = .ok (8 * 2 - 1, some [1, 0]) := by decide +kernel
  rw [this] at h1
  injection h1 with h1
  injection h1 with _ h1
  injection h1 with h1
  subst h1
  exact absurd h2 (by unfold ShiftedLeft; decide)

/-- Three bytes shifted by 3, seen as one number: 0xABCDEF · 8 = 0x55E6F78, of which 24 bits remain; the low 3 bits are the destination's. -/
example : copyBitsAlignedToUnaligned (some [0xAB, 0xCD, 0xEF]) (some [0, 0, 0xFF]) 3 24 = .ok (21, some [0x5E, 0x6F, 0x7F]) ∧
    num [0x5E, 0x6F, 0x7F] = 0x5E6F78 + 7 ∧ num [0xAB, 0xCD, 0xEF] * 2 ^ 3 = 0x55E6F78 ∧
    ShiftedLeft 3 [0xAB, 0xCD, 0xEF] [0, 0, 0xFF] [0x5E, 0x6F, 0x7F] := by
  unfold ShiftedLeft; decide +kernel

/-! ## C82 -/

/-- The property as stated in `properties.jsonl`. -/
def C82_Statement : Prop :=
  ∀ (src dst : List Byte) (off m : Nat), off < 8 * m → m ≤ src.length → m ≤ dst.length → dst.length < 2 ^ 61 →
    ∃ dst', copyBitsUnalignedToAligned (some src) off (some dst) (8 * m) = .ok (8 * m - off, some dst') ∧
      dst'.length = dst.length ∧ (∀ j, j < off / 8 ∨ m ≤ j → dst'.getD j 0 = dst.getD j 0) ∧
      ShiftedRight (off % 8) (part (off / 8) m src) (part (off / 8) m dst) (part (off / 8) m dst')

/-- C82, partial: the function returns the number of bits from the offset on, touches no byte outside, and shifts exactly when all bytes of
the source from `offset / 8` on agree in their lowest `offset % 8` bits. Missing: other sources, where a byte gets back its own low bits
instead of those of the byte before. -/
theorem C82_shift_iff_partial (src dst : List Byte) (off m : Nat) (h : off < 8 * m) (hs : m ≤ src.length) (hd : m ≤ dst.length)
    (hbig : dst.length < 2 ^ 61) :
    ∃ dst', copyBitsUnalignedToAligned (some src) off (some dst) (8 * m) = .ok (8 * m - off, some dst') ∧
      dst'.length = dst.length ∧ (∀ j, j < off / 8 ∨ m ≤ j → dst'.getD j 0 = dst.getD j 0) ∧
      (ShiftedRight (off % 8) (part (off / 8) m src) (part (off / 8) m dst) (part (off / 8) m dst') ↔
        ∀ j b, off / 8 ≤ j → j + 1 < m → b < off % 8 → (src.getD (j + 1) 0).getLsbD b = (src.getD j 0).getLsbD b) := by
  have ht : ∀ j, Touched off (8 * m) j → j < src.length ∧ j < dst.length := by
    intro j hj; rw [touched_whole h] at hj; omega
  obtain ⟨n, dst', hok, hlen, hbits⟩ := C30_closed_form_partial (by omega) ht hbig
  have hn := (C34_count_partial src dst off (8 * m) hbig).1 n _ hok (by omega)
  rw [count_whole h] at hn
  rw [hn.2] at hok
  refine ⟨dst', hok, hlen, ?_, ?_⟩
  · intro j hj
    refine BitVec.eq_of_getLsbD_eq fun b hb => ?_
    rw [hbits j b hb, if_neg (by omega), if_neg (by omega)]
  · have hdl : m ≤ dst'.length := by omega
    rw [shiftedRight_iff (n := m - off / 8) (by omega) (by omega) (part_length hs) (part_length hd) (part_length hdl)]
    constructor
    · intro hsh j b hj hjm hb
      have := hsh (j + 1 - off / 8) (8 - off % 8 + b) (by omega) (by omega)
      rw [part_getD (by omega), if_neg (by omega), if_pos (by omega), part_getD (by omega),
        show off / 8 + (j + 1 - off / 8) = j + 1 by omega, show off / 8 + (j + 1 - off / 8 - 1) = j by omega, hbits _ _ (by omega),
        if_neg (by omega), if_pos (by omega), show (off % 8 + (8 - off % 8 + b)) % 8 = b by omega,
        show off % 8 + (8 - off % 8 + b) - 8 = b by omega] at this
      exact this
    · intro hc k b hk hb
      rw [part_getD (by omega), hbits _ b hb]
      by_cases hk0 : k = 0
      · subst hk0
        rw [if_pos (by omega), if_neg (by omega : ¬ 0 < 0)]
        by_cases h1 : off % 8 + b < 8
        · rw [if_pos (by omega), if_pos h1, part_getD (by omega)]
        · rw [if_neg (by omega), if_neg h1, part_getD (by omega)]
      · rw [if_neg (by omega), if_pos (by omega)]
        by_cases h1 : off % 8 + b < 8
        · rw [if_pos h1, part_getD (by omega), Nat.mod_eq_of_lt h1]
        · rw [if_neg h1, if_pos (by omega), part_getD (by omega), show (off % 8 + b) % 8 = off % 8 + b - 8 by omega]
          have := hc (off / 8 + (k - 1)) (off % 8 + b - 8) (by omega) (by omega) (by omega)
          rw [show off / 8 + (k - 1) + 1 = off / 8 + k by omega] at this
          exact this

/-- C82, partial: in particular the copy is right if the lowest `offset % 8` bits of every byte of the source are zero, as in the suite's test with
a text, and if the offset is a whole number of bytes. -/
theorem C82_clean_partial (src dst : List Byte) (off m : Nat) (h : off < 8 * m) (hs : m ≤ src.length) (hd : m ≤ dst.length)
    (hbig : dst.length < 2 ^ 61) (hz : ∀ j, off / 8 ≤ j → j < m → (src.getD j 0).toNat % 2 ^ (off % 8) = 0) :
    ∃ dst', copyBitsUnalignedToAligned (some src) off (some dst) (8 * m) = .ok (8 * m - off, some dst') ∧
      ShiftedRight (off % 8) (part (off / 8) m src) (part (off / 8) m dst) (part (off / 8) m dst') := by
  obtain ⟨dst', h1, -, -, h2⟩ := C82_shift_iff_partial src dst off m h hs hd hbig
  have hb0 : ∀ j b, off / 8 ≤ j → j < m → b < off % 8 → (src.getD j 0).getLsbD b = false := by
    intro j b hj hjm hb
    have := congrArg (Nat.testBit · b) (hz j hj hjm)
    simp only [Nat.testBit_mod_two_pow, hb, decide_true, Bool.true_and, Nat.zero_testBit] at this
    rw [BitVec.getLsbD, this]
  exact ⟨dst', h1, h2.2 fun j b hj hjm hb => by rw [hb0 _ b (by omega) (by omega) hb, hb0 _ b hj (by omega) hb]⟩

/-- C82 is false of the code: a one at the end of a byte goes back into that byte, not into the next. -/
theorem C82_full_statement_fails : ¬ C82_Statement := by
  intro hst
  obtain ⟨d, h1, -, -, h2⟩ := hst [1, 0] [0, 0] 1 2 (by decide) (by decide) (by decide) (by decide)
  have : copyBitsUnalignedToAligned (some [1, 0]) 1 (some [0, 0]) (8 * 2) = .ok (8 * 2 - 1, some [0, 0]) := by decide +kernel
  rw [this] at h1
  injection h1 with h1
  injection h1 with _ h1
  injection h1 with h1
  subst h1
  exact absurd h2 (by unfold ShiftedRight; decide)

/-- Two bytes with equal low nibbles shifted right by 4, the highest four bits kept. -/
example : copyBitsUnalignedToAligned (some [0xA7, 0x37]) 4 (some [0xF0, 0]) 16 = .ok (12, some [0xFA, 0x73]) ∧
    ShiftedRight 4 [0xA7, 0x37] [0xF0, 0] [0xFA, 0x73] := by
  unfold ShiftedRight; decide +kernel

end Uavcan.CopyBits
