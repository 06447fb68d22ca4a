import Verif.Props.CopyBits

/-!
# C99: what is packed can be unpacked
-/

namespace Uavcan.CopyBits
open Spec

/-- Packing `len` bits to offset `off` and unpacking them again gives the same bits, whatever the buffers contain, as long as
they hold the bits involved. -/
def RoundTrip (off len : Nat) : Prop :=
  ∀ src mid out : List Byte, len ≤ 8 * src.length → off + len ≤ 8 * mid.length → len ≤ 8 * out.length →
    mid.length < 2 ^ 61 → out.length < 2 ^ 61 →
    ∃ n m mid' out', copyBitsAlignedToUnaligned (some src) (some mid) off len = .ok (n, some mid') ∧
      copyBitsUnalignedToAligned (some mid') off (some out) len = .ok (m, some out') ∧
      ∀ i, i < len → bit out' i = bit src i

/-- The property as stated in `properties.jsonl`. -/
def C99_Statement : Prop := ∀ off len, RoundTrip off len

/-- Both copies, where defined. -/
theorem round {src mid out : List Byte} {off len : Nat} (hlen : 0 < len)
    (ht : ∀ j, Touched off len j → j < src.length ∧ j < mid.length ∧ j < out.length) (h1 : mid.length < 2 ^ 61)
    (h2 : out.length < 2 ^ 61) :
    ∃ n m mid' out', copyBitsAlignedToUnaligned (some src) (some mid) off len = .ok (n, some mid') ∧
      copyBitsUnalignedToAligned (some mid') off (some out) len = .ok (m, some out') ∧
      (∀ j b, Touched off len j → b < 8 - off % 8 → (out'.getD j 0).getLsbD b = (src.getD j 0).getLsbD b) ∧
      (∀ b, 8 - off % 8 ≤ b → b < 8 → (out'.getD (off / 8) 0).getLsbD b = (out.getD (off / 8) 0).getLsbD b) ∧
      (∀ j, ¬ Touched off len j → ∀ b, b < 8 → (out'.getD j 0).getLsbD b = (out.getD j 0).getLsbD b) := by
  obtain ⟨n, mid', a1, a2, a3⟩ := C31_closed_form_partial (src := src) (dst := mid) (off := off) (len := len) hlen
    (fun j hj => ⟨(ht j hj).1, (ht j hj).2.1⟩) h1
  obtain ⟨m, out', b1, b2, b3⟩ := C30_closed_form_partial (src := mid') (dst := out) (off := off) (len := len) hlen
    (fun j hj => ⟨by rw [a2]; exact (ht j hj).2.1, (ht j hj).2.2⟩) h2
  refine ⟨n, m, mid', out', a1, b1, ?_, ?_, ?_⟩
  · intro j b hj hb
    rw [b3 j b (by omega)]
    have e := a3 j (off % 8 + b) (by omega)
    rw [if_pos ⟨hj, by omega⟩, show off % 8 + b - off % 8 = b by omega] at e
    by_cases h0 : j = off / 8
    · rw [if_pos h0, if_pos hb]; exact e
    · rw [if_neg h0, if_pos (hj.resolve_left h0), Nat.mod_eq_of_lt (by omega : off % 8 + b < 8)]
      exact e
  · intro b hb h8
    rw [b3 _ b h8, if_pos rfl, if_neg (by omega)]
  · intro j hj b hb
    rw [b3 j b hb, if_neg (fun h => hj (.inl h)), if_neg (fun h => hj (.inr h))]

/-- C99, partial: the bits come back (for all contents) exactly if the offset is zero or all bits are in the first byte. The
faults of the two functions (C30, C31) never cancel out. Missing: every other offset and length. -/
theorem C99_round_trip_iff_partial (off len : Nat) (hlen : 0 < len) (hbig : off + len < 2 ^ 60) :
    RoundTrip off len ↔ off = 0 ∨ off + len ≤ 8 := by
  constructor
  · intro h
    apply Classical.byContradiction
    intro hne
    obtain ⟨n, m, mid', out', h1, h2, h3⟩ := h (List.replicate (off + len + 1) 0xFF) (List.replicate (off + len + 1) 0)
      (List.replicate (off + len + 1) 0) (by simp; omega) (by simp; omega) (by simp; omega) (by simp; omega) (by simp; omega)
    obtain ⟨n2, m2, mid2, out2, g1, g2, g3, g4, g5⟩ := round (src := List.replicate (off + len + 1) 0xFF)
      (mid := List.replicate (off + len + 1) 0) (out := List.replicate (off + len + 1) 0) (off := off) (len := len) hlen
      (by intro j hj; simp only [Touched] at hj; simp only [List.length_replicate]; omega) (by simp; omega) (by simp; omega)
    rw [h1] at g1
    injection g1 with g1
    injection g1 with _ gd
    injection gd with gd
    subst gd
    rw [h2] at g2
    injection g2 with g2
    injection g2 with _ gd
    injection gd with gd
    subst gd
    by_cases h8 : 8 ≤ off
    · have := h3 0 hlen
      rw [bit_replicate_ff (by omega), bit_eq_getD (j := 0) (b := 0) rfl rfl,
        g5 0 (by unfold Touched; omega) 0 (by omega), getD_replicate _ (by omega)] at this
      simp at this
    · have := h3 (8 - off) (by omega)
      have e := g4 (8 - off) (by omega) (by omega)
      rw [show off / 8 = 0 by omega] at e
      rw [bit_replicate_ff (by omega), bit_eq_getD (j := 0) (b := 8 - off) (by omega) (by omega), e,
        getD_replicate _ (by omega)] at this
      simp at this
  · intro h src mid out hs hm ho h1 h2
    have h8 : off < 8 := by omega
    obtain ⟨n, m, mid', out', g1, g2, g3, -⟩ := round (src := src) (mid := mid) (out := out) (off := off) (len := len) hlen
      (by intro j hj; simp only [Touched] at hj; omega) h1 h2
    refine ⟨n, m, mid', out', g1, g2, ?_⟩
    intro i hi
    have := g3 (i / 8) (i % 8) (by unfold Touched; omega) (by omega)
    exact this

/-- C99, partial: what comes back for any offset below 8 and any length: the lowest `8 - offset` bits of byte 0 and of every
byte `j` with `8 j + offset < length`. -/
theorem C99_low_bits_partial (src mid out : List Byte) (off len : Nat) (hoff : off < 8) (hlen : 0 < len)
    (hs : len ≤ 8 * src.length) (hm : off + len ≤ 8 * mid.length) (ho : len ≤ 8 * out.length)
    (h1 : mid.length < 2 ^ 61) (h2 : out.length < 2 ^ 61) :
    ∃ n m mid' out', copyBitsAlignedToUnaligned (some src) (some mid) off len = .ok (n, some mid') ∧
      copyBitsUnalignedToAligned (some mid') off (some out) len = .ok (m, some out') ∧
      ∀ j b, (j = 0 ∨ 8 * j + off < len) → b < 8 - off → bit out' (8 * j + b) = bit src (8 * j + b) := by
  obtain ⟨n, m, mid', out', g1, g2, g3, -⟩ := round (src := src) (mid := mid) (out := out) (off := off) (len := len) hlen
    (by intro j hj; simp only [Touched] at hj; omega) h1 h2
  refine ⟨n, m, mid', out', g1, g2, ?_⟩
  intro j b hj hb
  have := g3 j b (by unfold Touched; omega) (by omega)
  rw [bit_eq_getD (j := j) (b := b) (by omega) (by omega), bit_eq_getD (j := j) (b := b) (by omega) (by omega)]
  exact this

/-- C99 is false of the code: 12 bits at offset 4 do not come back. -/
theorem C99_full_statement_fails : ¬ C99_Statement := fun h => by
  have := (C99_round_trip_iff_partial 4 12 (by omega) (by omega)).1 (h 4 12)
  omega

/-- The iff on both sides: 3 bits at offset 5 and 13 bits at offset 0 come back, 4 bits at offset 5 do not. -/
example : RoundTrip 5 3 ∧ RoundTrip 0 13 ∧ ¬ RoundTrip 5 4 := by
  refine ⟨(C99_round_trip_iff_partial 5 3 (by omega) (by omega)).2 (by omega),
    (C99_round_trip_iff_partial 0 13 (by omega) (by omega)).2 (by omega), fun h => ?_⟩
  have := (C99_round_trip_iff_partial 5 4 (by omega) (by omega)).1 h
  omega

/-- 12 bits of 0xABC at offset 4: 0xBC becomes 0xFC (four bits of the byte are those left in the destination). -/
example : (do
    let (_, m) ← copyBitsAlignedToUnaligned (some [0xBC, 0x0A]) (some [0, 0]) 4 12
    let (_, o) ← copyBitsUnalignedToAligned m 4 (some [0xFF, 0xFF]) 12
    return o) = .ok (some [0xFC, 0xFF]) := by decide +kernel

end Uavcan.CopyBits
