import Verif.Lemmas.CopyBits

/-!
# C30–C34: bit copies
-/

namespace Uavcan.CopyBits
open Spec

/-! ## C30 -/

/-- `copyBitsUnalignedToAligned` does what its documentation says for this offset and length: whatever the
buffers contain, as long as they hold the bits involved. -/
def UACorrect (off len : Nat) : Prop :=
  ∀ src dst : List Byte, off + len ≤ 8 * src.length → len ≤ 8 * dst.length → dst.length < 2 ^ 61 →
    ∃ dst', copyBitsUnalignedToAligned (some src) off (some dst) len = .ok (len, some dst') ∧
      IsBitCopy src off dst 0 len dst'

/-- The property as stated in `properties.jsonl`. -/
def C30_Statement : Prop := ∀ off len, UACorrect off len

theorem ua_ok {src dst : List Byte} {off len : Nat} (hlen : len ≠ 0)
    (ht : ∀ j, Touched off len j → j < src.length ∧ j < dst.length) (hs : dst.length < 2 ^ 61) :
    ∃ dst', copyBitsUnalignedToAligned (some src) off (some dst) len = .ok (count off len, some dst') ∧
      dst'.length = dst.length ∧
      ∀ j, dst'.getD j 0 =
        if j = off / 8 then uaByte (off % 8) (dst.getD j 0) (src.getD j 0)
        else if off / 8 < j ∧ 8 * j + off % 8 < len then
          uaByte (off % 8) (shl (src.getD j 0) (8 - off % 8)) (src.getD j 0)
        else dst.getD j 0 := by
  obtain ⟨dst', h1, h2, h3⟩ := uaLoop_ok (c := 0) (src := src) (dst := dst) (off := off) (len := len) rfl ht hs
  refine ⟨dst', ?_, h2, h3⟩
  simp [copyBitsUnalignedToAligned, hlen, h1]

theorem uaByte_getLsbD {lo : Nat} (hlo : lo < 8) (d s : Byte) {i : Nat} (hi : i < 8) :
    (uaByte lo d s).getLsbD i = if i < 8 - lo then s.getLsbD (lo + i) else d.getLsbD i := by
  simp only [uaByte, BitVec.getLsbD_or, BitVec.getLsbD_and, shr_getLsbD, shl_getLsbD _ _ _ (by omega : 8 - lo ≤ 8),
    ff_getLsbD, hi, decide_true, Bool.true_and]
  by_cases h : i < 8 - lo
  · have h1 : ¬ (8 - lo ≤ i) := by omega
    simp [h, h1]
  · have h1 : 8 - lo ≤ i := by omega
    have h2 : i - (8 - lo) < 8 := by omega
    have h3 : s.getLsbD (lo + i) = false := BitVec.getLsbD_of_ge _ _ (by omega)
    simp [h, h1, h2, h3]

theorem bit_eq_getD {l : List Byte} {i j b : Nat} (hj : i / 8 = j) (hb : i % 8 = b) :
    bit l i = (l.getD j 0).getLsbD b := by simp [bit, hj, hb]

/-- All ones and all zeros, to refute. -/
theorem getD_replicate {n j : Nat} (v : Byte) (h : j < n) : (List.replicate n v).getD j 0 = v := by
  simp [h]

theorem bit_replicate_zero (n i : Nat) : bit (List.replicate n 0) i = false := by
  simp only [bit, List.getD_eq_getElem?_getD, List.getElem?_replicate]
  split <;> simp

theorem bit_replicate_ff {n i : Nat} (h : i < 8 * n) : bit (List.replicate n 0xFF) i = true := by
  rw [bit, getD_replicate _ (by omega), ff_getLsbD]; simp; omega

/-- C30, partial: `copyBitsUnalignedToAligned` is right (for all contents) exactly when it copies whole bytes
from offset zero, or the rest of the first byte. Missing: every other offset and length - bits that cross a byte
boundary go to the wrong byte, offsets of eight and more are applied to the destination too, and a length that does not
end on a byte boundary overwrites the rest of the last byte. -/
theorem C30_correct_iff_partial (off len : Nat) (hlen : 0 < len) (hbig : off + len < 2 ^ 60) :
    UACorrect off len ↔ (off = 0 ∧ len % 8 = 0) ∨ (0 < off ∧ off < 8 ∧ len = 8 - off) := by
  constructor
  · intro h
    -- a large enough pair of buffers, all ones to all zeros
    have hx := h (List.replicate (off + len + 1) 0xFF) (List.replicate (off + len + 1) 0)
      (by simp; omega) (by simp; omega) (by simp; omega)
    obtain ⟨dst', h1, h2, h3⟩ := hx
    obtain ⟨dst2, g1, g2, g3⟩ := ua_ok (src := List.replicate (off + len + 1) 0xFF)
      (dst := List.replicate (off + len + 1) 0) (off := off) (len := len) (by omega)
      (by intro j hj; simp only [Touched] at hj; simp only [List.length_replicate]; omega)
      (by simp; omega)
    rw [h1] at g1
    injection g1 with g1
    injection g1 with gc gd
    injection gd with gd
    subst gd
    have hlo : off % 8 < 8 := by omega
    simp only [List.length_replicate] at h3
    apply Classical.byContradiction
    intro hne
    by_cases h8 : 8 ≤ off
    · have := h3 0 (by omega)
      rw [if_pos (by omega), bit_replicate_ff (by omega), bit_eq_getD (j := 0) (b := 0) rfl rfl, g3 0,
        if_neg (by omega), if_neg (by omega), getD_replicate _ (by omega)] at this
      simp at this
    · by_cases h0 : off = 0
      · subst h0
        have hm : len % 8 ≠ 0 := by omega
        have := h3 len (by omega)
        rw [if_neg (by omega), bit_replicate_zero, bit_eq_getD (j := len / 8) (b := len % 8) rfl rfl, g3 (len / 8)] at this
        by_cases hz : len / 8 = 0
        · rw [if_pos (by omega), uaByte_getLsbD (by omega) _ _ (by omega), if_pos (by omega),
            getD_replicate _ (by omega), ff_getLsbD] at this
          simp at this; omega
        · rw [if_neg (by omega), if_pos (by omega), uaByte_getLsbD (by omega) _ _ (by omega), if_pos (by omega),
            getD_replicate _ (by omega), ff_getLsbD] at this
          simp at this; omega
      · by_cases hl : len < 8 - off
        · have := h3 len (by omega)
          rw [if_neg (by omega), bit_replicate_zero, bit_eq_getD (j := 0) (b := len) (by omega) (by omega), g3 0,
            if_pos (by omega), uaByte_getLsbD (by omega) _ _ (by omega), if_pos (by omega),
            getD_replicate _ (by omega), ff_getLsbD] at this
          simp at this; omega
        · have := h3 (8 - off) (by omega)
          rw [if_pos (by omega), bit_replicate_ff (by omega), bit_eq_getD (j := 0) (b := 8 - off) (by omega) (by omega),
            g3 0, if_pos (by omega), uaByte_getLsbD (by omega) _ _ (by omega), if_neg (by omega),
            getD_replicate _ (by omega)] at this
          simp at this
  · intro h src dst hs hd hsz
    obtain ⟨dst', g1, g2, g3⟩ := ua_ok (src := src) (dst := dst) (off := off) (len := len) (by omega)
      (by intro j hj; simp only [Touched] at hj; omega) hsz
    have hcount : count off len = len := by
      rcases h with ⟨rfl, hm⟩ | ⟨h0, h8, rfl⟩
      · by_cases hl : len ≤ 8
        · rw [count_last (by omega)]; omega
        · simp only [count, passes, Nat.zero_mod, Nat.mul_zero, Nat.add_zero, Nat.sub_zero]
          rw [Nat.min_eq_right (by omega), Nat.max_eq_right (by omega)]
          omega
      · rw [count_last (by omega)]; omega
    rw [hcount] at g1
    refine ⟨dst', g1, g2, ?_⟩
    intro i hi
    have hlo : off % 8 < 8 := by omega
    rw [bit, g3 (i / 8)]
    rcases h with ⟨rfl, hm⟩ | ⟨h0, h8, rfl⟩
    · by_cases hin : i < len
      · have hc : 0 ≤ i ∧ i < 0 + len := by omega
        simp only [hc, and_self, if_true]
        by_cases hz : i / 8 = 0
        · rw [if_pos (by omega), uaByte_getLsbD (by omega) _ _ (by omega), if_pos (by omega)]
          simp only [bit]; congr 2 <;> omega
        · rw [if_neg (by omega), if_pos (by omega), uaByte_getLsbD (by omega) _ _ (by omega), if_pos (by omega)]
          simp only [bit]; congr 2 <;> omega
      · rw [if_neg (by omega), if_neg (by omega), if_neg (by omega)]; rfl
    · by_cases hz : i / 8 = 0
      · rw [if_pos (by omega), uaByte_getLsbD (by omega) _ _ (by omega)]
        by_cases hin : i < 8 - off
        · rw [if_pos (by omega), if_pos (by omega)]
          rw [bit_eq_getD (j := 0) (b := off + i) (by omega) (by omega), hz]
          congr 1; omega
        · rw [if_neg (by omega), if_neg (by omega)]; rfl
      · rw [if_neg (by omega), if_neg (by omega), if_neg (by omega)]; rfl

/-- C30 is false of the code: bit 8 of the source does not arrive when copying 8 bits from offset 1. -/
theorem C30_full_statement_fails : ¬ C30_Statement := by
  intro h
  have := (C30_correct_iff_partial 1 8 (by decide) (by decide)).1 (h 1 8)
  omega

/-- C30, partial: what the function computes for every offset and length and all contents, byte by byte (`j` runs
over all bytes): the first byte touched gets the upper bits of the same byte of the source; every further byte
with `8 j + offset % 8 < length` is the same byte of the source *rotated* right by `offset % 8`; the rest is unchanged. -/
theorem C30_closed_form_partial {src dst : List Byte} {off len : Nat} (hlen : 0 < len)
    (ht : ∀ j, Touched off len j → j < src.length ∧ j < dst.length) (hs : dst.length < 2 ^ 61) :
    ∃ n dst', copyBitsUnalignedToAligned (some src) off (some dst) len = .ok (n, some dst') ∧
      dst'.length = dst.length ∧
      ∀ j b, b < 8 → (dst'.getD j 0).getLsbD b =
        if j = off / 8 then (if b < 8 - off % 8 then (src.getD j 0).getLsbD (off % 8 + b) else (dst.getD j 0).getLsbD b)
        else if off / 8 < j ∧ 8 * j + off % 8 < len then (src.getD j 0).getLsbD ((off % 8 + b) % 8)
        else (dst.getD j 0).getLsbD b := by
  obtain ⟨dst', g1, g2, g3⟩ := ua_ok (src := src) (dst := dst) (off := off) (len := len) (by omega) ht hs
  refine ⟨_, dst', g1, g2, ?_⟩
  intro j b hb
  have hlo : off % 8 < 8 := by omega
  rw [g3 j]
  split
  · exact uaByte_getLsbD hlo _ _ hb
  · split
    · rw [uaByte_getLsbD hlo _ _ hb]
      split
      · congr 1; omega
      · rw [shl_getLsbD _ _ _ (by omega)]
        have h1 : 8 - off % 8 ≤ b := by omega
        simp only [hb, h1, decide_true, Bool.true_and]
        congr 1; omega
    · rfl

example : copyBitsUnalignedToAligned (some [0xA5, 0x3C, 0xFF]) 0 (some [0, 0, 0]) 16 =
    .ok (16, some [0xA5, 0x3C, 0]) := by decide +kernel
example : copyBitsUnalignedToAligned (some [0xA5]) 3 (some [0xFF]) 5 = .ok (5, some [0xF4]) := by decide +kernel
/-- The counterexample in numbers: 8 bits from offset 1 of `[0x00, 0x01]` should give `0x80`; the code gives 0
and says it copied 7 bits. -/
example : copyBitsUnalignedToAligned (some [0x00, 0x01]) 1 (some [0x00]) 8 = .ok (7, some [0x00]) ∧
    bit [0x00, 0x01] 8 = true := by decide +kernel
/-- With two bytes and offset 4 the second byte comes out with its halves exchanged. -/
example : copyBitsUnalignedToAligned (some [0x12, 0x34]) 4 (some [0, 0]) 16 = .ok (12, some [0x01, 0x43]) := by
  decide +kernel

/-! ## C31 -/

/-- `copyBitsAlignedToUnaligned` does what its documentation says for this offset and length. -/
def AUCorrect (off len : Nat) : Prop :=
  ∀ src dst : List Byte, len ≤ 8 * src.length → off + len ≤ 8 * dst.length → dst.length < 2 ^ 61 →
    ∃ dst', copyBitsAlignedToUnaligned (some src) (some dst) off len = .ok (len, some dst') ∧
      IsBitCopy src 0 dst off len dst'

/-- The property as stated in `properties.jsonl`. -/
def C31_Statement : Prop := ∀ off len, AUCorrect off len

theorem au_ok {src dst : List Byte} {off len : Nat} (hlen : len ≠ 0)
    (ht : ∀ j, Touched off len j → j < src.length ∧ j < dst.length) (hs : dst.length < 2 ^ 61) :
    ∃ dst', copyBitsAlignedToUnaligned (some src) (some dst) off len = .ok (count off len, some dst') ∧
      dst'.length = dst.length ∧
      ∀ j, dst'.getD j 0 =
        if j = off / 8 ∨ (off / 8 < j ∧ 8 * j + off % 8 < len) then
          auByte (off % 8) (dst.getD j 0) (src.getD j 0) |||
            (if 8 * (j + 1) + off % 8 < len then shr (src.getD (j + 1) 0) (8 - off % 8) else 0)
        else dst.getD j 0 := by
  obtain ⟨dst', h1, h2, h3⟩ := auLoop_ok (c := 0) (src := src) (dst := dst) (off := off) (len := len) rfl ht hs
  refine ⟨dst', ?_, h2, h3⟩
  simp [copyBitsAlignedToUnaligned, hlen, h1]

theorem auByte_getLsbD {lo : Nat} (hlo : lo < 8) (d s : Byte) {i : Nat} (hi : i < 8) :
    (auByte lo d s).getLsbD i = if lo ≤ i then s.getLsbD (i - lo) else d.getLsbD i := by
  simp only [auByte, BitVec.getLsbD_or, BitVec.getLsbD_and, shr_getLsbD, shl_getLsbD _ _ _ (by omega : lo ≤ 8),
    ff_getLsbD, hi, decide_true, Bool.true_and]
  by_cases h : lo ≤ i
  · have h1 : ¬ (8 - lo + i < 8) := by omega
    simp [h, h1]
  · have h1 : 8 - lo + i < 8 := by omega
    simp [h, h1]

/-- Bits of the byte that the extra statement 388 or-s in. -/
theorem au_extra_getLsbD {lo : Nat} (s : Byte) {i : Nat} (hi : lo ≤ i) : (shr s (8 - lo)).getLsbD i = false := by
  rw [shr_getLsbD]
  have : s.getLsbD (8 - lo + i) = false := BitVec.getLsbD_of_ge _ _ (by omega)
  simp [this]

/-- The first byte `0xFF`, the rest zero, to refute. -/
theorem getD_oneFF (n j : Nat) : ((0xFF : Byte) :: List.replicate n 0).getD j 0 = if j = 0 then 0xFF else 0 := by
  cases j with
  | zero => simp
  | succ j =>
    rw [List.getD_cons_succ, if_neg (by omega), List.getD_eq_getElem?_getD, List.getElem?_replicate]
    split <;> rfl

/-- C31, partial: `copyBitsAlignedToUnaligned` is right (for all contents) exactly when it copies whole bytes
to offset zero, or fills the rest of the first byte. Missing: every other offset and length. -/
theorem C31_correct_iff_partial (off len : Nat) (hlen : 0 < len) (hbig : off + len < 2 ^ 60) :
    AUCorrect off len ↔ (off = 0 ∧ len % 8 = 0) ∨ (0 < off ∧ off < 8 ∧ len = 8 - off) := by
  constructor
  · intro h
    apply Classical.byContradiction
    intro hne
    have hlo : off % 8 < 8 := by omega
    -- either all ones, or only the first byte
    have run : ∀ src : List Byte, src.length = off + len + 1 →
        ∃ dst', (∀ i, i < 8 * (off + len + 1) → bit dst' i = if off ≤ i ∧ i < off + len then bit src (i - off) else false) ∧
          ∀ j, dst'.getD j 0 =
            if j = off / 8 ∨ (off / 8 < j ∧ 8 * j + off % 8 < len) then
              auByte (off % 8) ((List.replicate (off + len + 1) (0 : Byte)).getD j 0) (src.getD j 0) |||
                (if 8 * (j + 1) + off % 8 < len then shr (src.getD (j + 1) 0) (8 - off % 8) else 0)
            else (List.replicate (off + len + 1) (0 : Byte)).getD j 0 := by
      intro src hsl
      obtain ⟨dst', h1, h2, h3⟩ := h src (List.replicate (off + len + 1) 0) (by omega) (by simp; omega) (by simp; omega)
      obtain ⟨dst2, g1, g2, g3⟩ := au_ok (src := src) (dst := List.replicate (off + len + 1) 0) (off := off) (len := len)
        (by omega) (by intro j hj; simp only [Touched] at hj; simp only [List.length_replicate]; omega) (by simp; omega)
      rw [h1] at g1
      injection g1 with g1
      injection g1 with gc gd
      injection gd with gd
      subst gd
      refine ⟨dst', ?_, g3⟩
      intro i hi
      simp only [List.length_replicate] at h3
      rw [h3 i hi, bit_replicate_zero, Nat.zero_add]
    by_cases h8 : 8 ≤ off
    · obtain ⟨dst', r1, r2⟩ := run (0xFF :: List.replicate (off + len) 0) (by simp)
      have := r1 off (by omega)
      rw [if_pos (by omega), Nat.sub_self, bit_eq_getD (j := off / 8) (b := off % 8) rfl rfl, r2,
        if_pos (.inl rfl), BitVec.getLsbD_or, auByte_getLsbD hlo _ _ (by omega), if_pos (Nat.le_refl _),
        getD_oneFF, if_neg (by omega), Nat.sub_self] at this
      have hx : ∀ (P : Prop) [Decidable P] (s : Byte),
          (if P then shr s (8 - off % 8) else (0 : Byte)).getLsbD (off % 8) = false := by
        intro P _ s
        split
        · exact au_extra_getLsbD _ (Nat.le_refl _)
        · simp
      rw [hx] at this
      simp [bit] at this
    · by_cases h0 : off = 0
      · subst h0
        have hm : len % 8 ≠ 0 := by omega
        obtain ⟨dst', r1, r2⟩ := run (List.replicate (0 + len + 1) 0xFF) (by simp)
        have := r1 len (by omega)
        rw [if_neg (by omega), bit_eq_getD (j := len / 8) (b := len % 8) rfl rfl, r2,
          if_pos (by omega), BitVec.getLsbD_or, auByte_getLsbD (by omega) _ _ (by omega), if_pos (by omega),
          getD_replicate _ (by omega), ff_getLsbD] at this
        have hx : decide (len % 8 - 0 % 8 < 8) = true := by simp; omega
        rw [hx] at this
        simp at this
      · by_cases hl : len < 8 - off
        · obtain ⟨dst', r1, r2⟩ := run (List.replicate (off + len + 1) 0xFF) (by simp)
          have := r1 (off + len) (by omega)
          rw [if_neg (by omega), bit_eq_getD (j := 0) (b := off + len) (by omega) (by omega), r2,
            if_pos (by omega), BitVec.getLsbD_or, auByte_getLsbD (by omega) _ _ (by omega), if_pos (by omega),
            getD_replicate _ (by omega), ff_getLsbD] at this
          have hx : decide (off + len - off % 8 < 8) = true := by simp; omega
          rw [hx] at this
          simp at this
        · obtain ⟨dst', r1, r2⟩ := run (0xFF :: List.replicate (off + len) 0) (by simp)
          have := r1 8 (by omega)
          rw [if_pos (by omega), bit_eq_getD (j := 1) (b := 0) rfl rfl, r2,
            bit_eq_getD (j := 0) (b := 8 - off) (by omega) (by omega), getD_oneFF _ 0, if_pos rfl, ff_getLsbD] at this
          have hx : decide (8 - off < 8) = true := by simp; omega
          rw [hx] at this
          have hz : ∀ (P : Prop) [Decidable P],
              (if P then shr (((0xFF : Byte) :: List.replicate (off + len) 0).getD (1 + 1) 0) (8 - off % 8)
                else (0 : Byte)).getLsbD 0 = false := by
            intro P _
            split
            · rw [getD_oneFF, if_neg (by omega), shr_getLsbD]; simp
            · simp
          split at this
          · rw [BitVec.getLsbD_or, hz, auByte_getLsbD (by omega) _ _ (by omega), if_neg (by omega),
              getD_replicate _ (by omega)] at this
            simp at this
          · rw [getD_replicate _ (by omega)] at this
            simp at this
  · intro h src dst hs hd hsz
    obtain ⟨dst', g1, g2, g3⟩ := au_ok (src := src) (dst := dst) (off := off) (len := len) (by omega)
      (by intro j hj; simp only [Touched] at hj; omega) hsz
    have hcount : count off len = len := by
      rcases h with ⟨rfl, hm⟩ | ⟨h0, h8, rfl⟩
      · by_cases hl : len ≤ 8
        · rw [count_last (by omega)]; omega
        · simp only [count, passes, Nat.zero_mod, Nat.mul_zero, Nat.add_zero, Nat.sub_zero]
          rw [Nat.min_eq_right (by omega), Nat.max_eq_right (by omega)]
          omega
      · rw [count_last (by omega)]; omega
    rw [hcount] at g1
    refine ⟨dst', g1, g2, ?_⟩
    intro i hi
    have hlo : off % 8 < 8 := by omega
    rw [bit, g3 (i / 8)]
    have hx : ∀ (P : Prop) [Decidable P] (s : Byte), off % 8 ≤ i % 8 →
        (if P then shr s (8 - off % 8) else (0 : Byte)).getLsbD (i % 8) = false := by
      intro P _ s hle
      split
      · exact au_extra_getLsbD _ hle
      · simp
    rcases h with ⟨rfl, hm⟩ | ⟨h0, h8, rfl⟩
    · by_cases hin : i < len
      · rw [if_pos (by omega), BitVec.getLsbD_or, hx _ _ (by omega),
          auByte_getLsbD (by omega) _ _ (by omega), if_pos (by omega), if_pos (by omega)]
        simp only [bit, Bool.or_false]; congr 2 <;> omega
      · rw [if_neg (by omega), if_neg (by omega)]; rfl
    · by_cases hz : i / 8 = 0
      · have hq : ¬ (8 * (i / 8 + 1) + off % 8 < 8 - off) := by omega
        rw [if_pos (by omega), if_neg hq, BitVec.getLsbD_or, auByte_getLsbD (by omega) _ _ (by omega)]
        by_cases hin : off ≤ i
        · rw [if_pos (by omega), if_pos (by omega)]
          rw [bit_eq_getD (j := 0) (b := i - off) (by omega) (by omega), hz]
          simp only [BitVec.ofNat_eq_ofNat, BitVec.getLsbD_zero, Bool.or_false]
          congr 1; omega
        · rw [if_neg (by omega), if_neg (by omega)]
          simp [bit]
      · rw [if_neg (by omega), if_neg (by omega)]; rfl

/-- C31 is false of the code. -/
theorem C31_full_statement_fails : ¬ C31_Statement := by
  intro h
  have := (C31_correct_iff_partial 1 8 (by decide) (by decide)).1 (h 1 8)
  omega

/-- C31, partial: what the function computes for every offset and length and all contents: in every byte `j` touched,
the bits from `offset % 8` on are the low bits of byte `j` of the source; the bits below are *or-ed* with the high bits of the
next byte of the source if that is touched too, and otherwise unchanged. -/
theorem C31_closed_form_partial {src dst : List Byte} {off len : Nat} (hlen : 0 < len)
    (ht : ∀ j, Touched off len j → j < src.length ∧ j < dst.length) (hs : dst.length < 2 ^ 61) :
    ∃ n dst', copyBitsAlignedToUnaligned (some src) (some dst) off len = .ok (n, some dst') ∧
      dst'.length = dst.length ∧
      ∀ j b, b < 8 → (dst'.getD j 0).getLsbD b =
        if Touched off len j ∧ off % 8 ≤ b then (src.getD j 0).getLsbD (b - off % 8)
        else if Touched off len j ∧ 8 * (j + 1) + off % 8 < len then
          ((dst.getD j 0).getLsbD b || (src.getD (j + 1) 0).getLsbD (8 - off % 8 + b))
        else (dst.getD j 0).getLsbD b := by
  obtain ⟨dst', g1, g2, g3⟩ := au_ok (src := src) (dst := dst) (off := off) (len := len) (by omega) ht hs
  refine ⟨_, dst', g1, g2, ?_⟩
  intro j b hb
  have hlo : off % 8 < 8 := by omega
  rw [g3 j]
  by_cases hT : Touched off len j
  · rw [if_pos (by simpa only [Touched] using hT), BitVec.getLsbD_or, auByte_getLsbD hlo _ _ hb]
    by_cases hle : off % 8 ≤ b
    · simp only [hT, hle, and_self, if_true]
      split
      · rw [au_extra_getLsbD _ hle, Bool.or_false]
      · simp
    · simp only [hT, hle, and_false, if_false, true_and]
      split
      · rw [shr_getLsbD]; simp [hb]
      · simp
  · rw [if_neg (by simpa only [Touched] using hT)]
    simp only [hT, false_and, if_false]

example : copyBitsAlignedToUnaligned (some [0xA5, 0x3C]) (some [0, 0, 7]) 0 16 =
    .ok (16, some [0xA5, 0x3C, 7]) := by decide +kernel
example : copyBitsAlignedToUnaligned (some [0xFF]) (some [0x02]) 3 5 = .ok (5, some [0xFA]) := by decide +kernel
/-- Eight bits to offset 1: the top bit of the source is lost. -/
example : copyBitsAlignedToUnaligned (some [0x80]) (some [0x00, 0x00]) 1 8 = .ok (7, some [0x00, 0x00]) := by
  decide +kernel

/-! ## C32 -/

/-- The property as stated in `properties.jsonl`. -/
def C32_Statement : Prop :=
  (∀ src dst : List Byte, ∀ off len, off + len ≤ 8 * src.length → len ≤ 8 * dst.length → dst.length < 2 ^ 61 →
    (copyBitsUnalignedToAligned (some src) off (some dst) len).Defined) ∧
  (∀ src dst : List Byte, ∀ off len, len ≤ 8 * src.length → off + len ≤ 8 * dst.length → dst.length < 2 ^ 61 →
    (copyBitsAlignedToUnaligned (some src) (some dst) off len).Defined)

/-- C32 is false of the code: copying one byte from offset 8 writes to the second byte of the destination. -/
theorem C32_full_statement_fails : ¬ C32_Statement := by
  intro h
  obtain ⟨x, hx⟩ := h.1 [0, 0] [0] 8 8 (by decide) (by decide) (by decide)
  have : copyBitsUnalignedToAligned (some [0, 0]) 8 (some [0]) 8 = .ub .outOfBounds := by decide +kernel
  rw [this] at hx
  cases hx

/-- C32, partial: the exact condition. Both functions (which always terminate) are defined if and only if both
buffers contain byte `offset / 8` and every byte `j > offset / 8` with `8 j + offset % 8 < length`; otherwise they access a byte beyond
the end of a buffer. In particular the documented condition is sufficient when the offset is less than 8. -/
theorem C32_defined_iff_partial (src dst : List Byte) (off len : Nat) (hlen : 0 < len) (hs : dst.length < 2 ^ 61) :
    ((copyBitsUnalignedToAligned (some src) off (some dst) len).Defined ↔
      ∀ j, Touched off len j → j < src.length ∧ j < dst.length) ∧
    ((copyBitsAlignedToUnaligned (some src) (some dst) off len).Defined ↔
      ∀ j, Touched off len j → j < src.length ∧ j < dst.length) ∧
    (¬ (∀ j, Touched off len j → j < src.length ∧ j < dst.length) →
      copyBitsUnalignedToAligned (some src) off (some dst) len = .ub .outOfBounds ∧
      copyBitsAlignedToUnaligned (some src) (some dst) off len = .ub .outOfBounds) := by
  have hub : ¬ (∀ j, Touched off len j → j < src.length ∧ j < dst.length) →
      copyBitsUnalignedToAligned (some src) off (some dst) len = .ub .outOfBounds ∧
      copyBitsAlignedToUnaligned (some src) (some dst) off len = .ub .outOfBounds := by
    intro h
    obtain ⟨j, hj⟩ := Classical.not_forall.1 h
    obtain ⟨hj, hb⟩ := Classical.not_imp.1 hj
    have hb' : src.length ≤ j ∨ dst.length ≤ j := by omega
    have hl : len ≠ 0 := by omega
    constructor
    · simp [copyBitsUnalignedToAligned, hl, uaLoop_ub rfl hj hb' hs]
    · simp [copyBitsAlignedToUnaligned, hl, auLoop_ub rfl hj hb' hs]
  refine ⟨⟨?_, ?_⟩, ⟨?_, ?_⟩, hub⟩
  · rintro ⟨x, hx⟩
    apply Classical.byContradiction
    intro h
    rw [(hub h).1] at hx; cases hx
  · intro h
    obtain ⟨d, hd, -⟩ := ua_ok (by omega) h hs
    exact ⟨_, hd⟩
  · rintro ⟨x, hx⟩
    apply Classical.byContradiction
    intro h
    rw [(hub h).2] at hx; cases hx
  · intro h
    obtain ⟨d, hd, -⟩ := au_ok (by omega) h hs
    exact ⟨_, hd⟩

/-- C32, partial: for offsets below 8 the stated condition suffices, for both functions. -/
theorem C32_small_offset_partial (src dst : List Byte) (off len : Nat) (hoff : off < 8) (hs : dst.length < 2 ^ 61) :
    (off + len ≤ 8 * src.length → len ≤ 8 * dst.length →
      (copyBitsUnalignedToAligned (some src) off (some dst) len).Defined) ∧
    (len ≤ 8 * src.length → off + len ≤ 8 * dst.length →
      (copyBitsAlignedToUnaligned (some src) (some dst) off len).Defined) := by
  by_cases hlen : len = 0
  · subst hlen
    exact ⟨fun _ _ => ⟨_, by simp [copyBitsUnalignedToAligned]; rfl⟩,
      fun _ _ => ⟨_, by simp [copyBitsAlignedToUnaligned]; rfl⟩⟩
  · have := C32_defined_iff_partial src dst off len (by omega) hs
    refine ⟨fun h1 h2 => this.1.2 ?_, fun h1 h2 => this.2.1.2 ?_⟩ <;>
    · intro j hj
      simp only [Touched] at hj
      omega

example : Touched 8 8 1 ∧ ¬ Touched 8 8 0 ∧ Touched 3 20 2 ∧ ¬ Touched 3 19 2 := by
  simp [Touched]

/-! ## C33 -/

/-- C33: null buffers or a zero length: nothing happens, and 0 is returned. -/
theorem C33_null_or_zero (src dst : Option (List Byte)) (off len : Nat) (h : src = none ∨ dst = none ∨ len = 0) :
    copyBitsUnalignedToAligned src off dst len = .ok (0, dst) ∧
    copyBitsAlignedToUnaligned src dst off len = .ok (0, dst) := by
  cases src <;> cases dst <;> simp_all [copyBitsUnalignedToAligned, copyBitsAlignedToUnaligned]

example : copyBitsUnalignedToAligned none 3 (some [1]) 9 = .ok (0, some [1]) ∧
    copyBitsAlignedToUnaligned (some [1]) (some [7]) 3 0 = .ok (0, some [7]) := by decide +kernel

/-! ## C34 -/

/-- The property as stated in `properties.jsonl`: the count depends on offset and length only and never exceeds
the length. -/
def C34_Statement : Prop :=
  ∃ f : Nat → Nat → Nat, (∀ off len, f off len ≤ len) ∧
    ∀ src dst off len n dst', copyBitsUnalignedToAligned (some src) off (some dst) len = .ok (n, some dst') →
      n = f off len

/-- C34 is false of the code: a copy of 9 bits reports 16. -/
theorem C34_full_statement_fails : ¬ C34_Statement := by
  rintro ⟨f, h1, h2⟩
  have := h2 [0, 0] [0, 0] 0 9 16 [0, 0] (by decide +kernel)
  have := h1 0 9
  omega

/-- C34, partial: whenever defined, both functions return the same number, which depends on offset and length only:
with `p = max 1 ⌈(length − offset) / 8⌉` passes, it is `p · min(length, 8 − offset % 8) + (p − 1) · (offset % 8)`, which
is `length` or less for a single pass and `8 p − offset % 8 < length + 8` otherwise. Missing: it can exceed the
length, by at most 7 bits. -/
theorem C34_count_partial (src dst : List Byte) (off len : Nat) (hs : dst.length < 2 ^ 61) :
    (∀ n dst', copyBitsUnalignedToAligned (some src) off (some dst) len = .ok (n, dst') → 0 < len →
      n = max 1 ((len - off + 7) / 8) * min len (8 - off % 8) + (max 1 ((len - off + 7) / 8) - 1) * (off % 8) ∧
      n = count off len) ∧
    (∀ n dst', copyBitsAlignedToUnaligned (some src) (some dst) off len = .ok (n, dst') → 0 < len →
      n = max 1 ((len - off + 7) / 8) * min len (8 - off % 8) + (max 1 ((len - off + 7) / 8) - 1) * (off % 8) ∧
      n = count off len) ∧
    (len ≤ off + 8 → count off len ≤ len) ∧
    (off + 8 < len → count off len = 8 * ((len - off + 7) / 8) - off % 8 ∧ count off len < len + 8) := by
  refine ⟨?_, ?_, ?_, ?_⟩
  · intro n dst' h hlen
    have hx := (C32_defined_iff_partial src dst off len hlen hs).1.1 ⟨_, h⟩
    obtain ⟨d, hd, -⟩ := ua_ok (by omega) hx hs
    rw [h] at hd
    injection hd with hd
    injection hd with hd
    exact ⟨hd, hd⟩
  · intro n dst' h hlen
    have hx := (C32_defined_iff_partial src dst off len hlen hs).2.1.1 ⟨_, h⟩
    obtain ⟨d, hd, -⟩ := au_ok (by omega) hx hs
    rw [h] at hd
    injection hd with hd
    injection hd with hd
    exact ⟨hd, hd⟩
  · intro h; rw [count_last h]; omega
  · intro h
    have h1 : min len (8 - off % 8) = 8 - off % 8 := by omega
    have h2 : passes off len = (len - off + 7) / 8 := by simp only [passes]; omega
    have h3 : count off len = 8 * ((len - off + 7) / 8) - off % 8 := by
      simp only [count, h1, h2]
      obtain ⟨p, hp⟩ : ∃ p, (len - off + 7) / 8 = p + 1 := ⟨(len - off + 7) / 8 - 1, by omega⟩
      obtain ⟨l, r, hl⟩ : ∃ l r, off % 8 = l ∧ 8 - l = r := ⟨off % 8, 8 - off % 8, rfl, rfl⟩
      have hl8 : l < 8 := by omega
      rw [hp, hl.1, hl.2, Nat.add_sub_cancel, Nat.add_mul]
      have : p * r + p * l = p * 8 := by rw [← Nat.mul_add]; congr 1; omega
      omega
    exact ⟨h3, by omega⟩

example : count 0 9 = 16 ∧ count 0 16 = 16 ∧ count 3 5 = 5 ∧ count 3 4 = 4 ∧ count 3 20 = 21 ∧ count 5 24 = 19 := by
  decide

end Uavcan.CopyBits
