import Verif.Model.MoveBits
import Verif.Props.Message

/-!
# C120: every bit copy can be made from calls that work
-/

namespace Uavcan.CopyBits
open Spec

/-! ## Lemmas -/

/-- The byte with its lowest bit replaced. -/
theorem merge_bit (u t : Byte) (b : Nat) (hb : b < 8) :
    ((u &&& 0xFE) ||| (t &&& 1)).getLsbD b = if b = 0 then t.getLsbD 0 else u.getLsbD b := by
  have : ∀ b : Fin 8, ((0xFE : Byte).getLsbD b = decide (b.1 ≠ 0)) ∧ ((1 : Byte).getLsbD b = decide (b.1 = 0)) := by decide
  obtain ⟨h1, h2⟩ := this ⟨b, hb⟩
  simp only [BitVec.getLsbD_or, BitVec.getLsbD_and, h1, h2]
  by_cases h : b = 0
  · subst h; simp
  · simp [h]

theorem moveBit_ok {src dst : List Byte} {s d : Nat} (hs : s < 8 * src.length) (hd : d < 8 * dst.length) (hbig : dst.length < 2 ^ 61) :
    ∃ dst', moveBit src s d dst = .ok dst' ∧ dst'.length = dst.length ∧
      ∀ i, i < 8 * dst.length → bit dst' i = if i = d then bit src s else bit dst i := by
  obtain ⟨t, t1, t2⟩ := fetch_fine (st := .advancing) (w := 1) (p := s) (buf := src) (out := [0])
    (by unfold Fine; simp only [Style.offset]; omega) (by decide) (by omega) (by decide)
  obtain ⟨u, u1, u2⟩ := fetch_fine (st := .advancing) (w := 8 - d % 8) (p := d) (buf := dst) (out := [0])
    (by unfold Fine; simp only [Style.offset]; omega) (by simp) (by omega) (by decide)
  obtain ⟨r, r1, r2, r3⟩ := put_form (st := .advancing) (w := 8 - d % 8) (p := d)
    (f := [(u.getD 0 0 &&& 0xFE) ||| (t.getD 0 0 &&& 1)]) (buf := dst) (by omega) (by
      intro j hj
      simp only [Touched, Style.offset] at hj
      simp only [Style.base, List.length_drop, List.length_singleton]
      omega) hbig
  refine ⟨r, ?_, r2, ?_⟩
  · simp only [moveBit, t1, u1, Outcome.ok_bind, r1]
  obtain ⟨r3, r4⟩ := r3
  have ht := t2 0 (by omega)
  rw [Nat.add_zero, bit_eq_getD (l := t) (j := 0) (b := 0) rfl rfl] at ht
  intro i hi
  by_cases hb : i / 8 < d / 8
  · rw [if_neg (by omega)]
    exact r3 _ _ (by omega) hb
  · have e := r4 (i / 8 - d / 8) (i % 8) (by omega)
    have ho : Style.advancing.offset d = d % 8 := rfl
    rw [show Style.advancing.base d + (i / 8 - d / 8) = i / 8 by simp only [Style.base]; omega] at e
    rw [show bit r i = (r.getD (i / 8) 0).getLsbD (i % 8) from rfl, e]
    by_cases hj : i / 8 = d / 8 ∧ d % 8 ≤ i % 8
    · rw [if_pos (⟨.inl (by omega), by omega⟩ : Touched (Style.advancing.offset d) (8 - d % 8) (i / 8 - d / 8) ∧ _),
        show i / 8 - d / 8 = 0 by omega]
      rw [show ∀ x : Byte, [x].getD 0 0 = x from fun _ => rfl, merge_bit _ _ _ (by omega)]
      by_cases h0 : i = d
      · rw [if_pos h0, if_pos (by omega), ht]
      · rw [if_neg h0, if_neg (by omega)]
        have := u2 (i % 8 - d % 8) (by omega)
        rw [show d + (i % 8 - d % 8) = i by omega, bit_eq_getD (l := u) (j := 0) (b := i % 8 - d % 8) (by omega) (by omega)] at this
        rw [this, show i % 8 - Style.advancing.offset d % 8 = i % 8 - d % 8 by omega]
    · have h1 : ¬ (Touched (Style.advancing.offset d) (8 - d % 8) (i / 8 - d / 8) ∧ Style.advancing.offset d % 8 ≤ i % 8) := by
        simp only [Touched]; omega
      have h2 : ¬ (Touched (Style.advancing.offset d) (8 - d % 8) (i / 8 - d / 8) ∧
          8 * (i / 8 - d / 8 + 1) + Style.advancing.offset d % 8 < 8 - d % 8) := by
        simp only [Touched]; omega
      rw [if_neg h1, if_neg h2, if_neg (by omega)]
      rfl

/-! ## C120 -/

/-- C120: moving bits one at a time is the bit copy of the documentation, for every position and length. -/
theorem C120_bit_copy (src : List Byte) (len : Nat) : ∀ (s d : Nat) (dst : List Byte), s + len ≤ 8 * src.length → d + len ≤ 8 * dst.length →
    dst.length < 2 ^ 61 → ∃ dst', moveBits src s d len dst = .ok dst' ∧ IsBitCopy src s dst d len dst' := by
  induction len with
  | zero =>
    intro s d dst _ _ _
    exact ⟨dst, rfl, rfl, fun i _ => by rw [if_neg (by omega)]⟩
  | succ len ih =>
    intro s d dst hs hd hb
    obtain ⟨d1, a1, a2, a3⟩ := moveBit_ok (src := src) (s := s) (d := d) (dst := dst) (by omega) (by omega) hb
    obtain ⟨d2, b1, b2, b3⟩ := ih (s + 1) (d + 1) d1 (by omega) (by omega) (by omega)
    refine ⟨d2, ?_, by omega, fun i hi => ?_⟩
    · simp only [moveBits, a1, Outcome.ok_bind, b1]
    · rw [b3 i (by omega)]
      by_cases h0 : i = d
      · subst h0
        rw [if_neg (by omega), a3 i hi, if_pos rfl, if_pos (by omega), Nat.sub_self, Nat.add_zero]
      · by_cases h1 : d + 1 ≤ i ∧ i < d + 1 + len
        · rw [if_pos h1, if_pos (by omega)]
          congr 1; omega
        · rw [if_neg h1, if_neg (by omega), a3 i hi, if_neg h0]

theorem packMoving_ok : ∀ {fields : List (Nat × List Byte)} {p : Nat} {buf : List Byte},
    Hold fields → p + width fields ≤ 8 * buf.length → buf.length < 2 ^ 61 →
    ∃ buf', packMoving fields p buf = .ok buf' ∧ buf'.length = buf.length ∧
      (∀ i, i < 8 * buf.length → i < p ∨ p + width fields ≤ i → bit buf' i = bit buf i) ∧ Placed fields p buf' := by
  intro fields
  induction fields with
  | nil =>
    intro p buf _ _ _
    exact ⟨buf, rfl, rfl, fun _ _ _ => rfl, fun pre w f post e => absurd e (by simp)⟩
  | cons x l ih =>
    intro p buf hh hl hs
    obtain ⟨w, f⟩ := x
    rw [Hold.cons] at hh
    rw [width_cons] at hl ⊢
    simp only at hh hl ⊢
    obtain ⟨b1, a1, a2, a3⟩ := C120_bit_copy f w 0 p buf (by omega) (by omega) hs
    obtain ⟨b2, c1, c2, c3, c4⟩ := ih (p := p + w) (buf := b1) hh.2 (by omega) (by omega)
    refine ⟨b2, ?_, by omega, ?_, ?_⟩
    · simp only [packMoving, a1, Outcome.ok_bind, c1]
    · intro i h1 h2
      rw [c3 i (by omega) (by omega), a3 i h1, if_neg (by omega)]
    · rw [Placed.cons]
      refine ⟨fun k hk => ?_, c4⟩
      rw [c3 _ (by omega) (by omega), a3 _ (by omega), if_pos (by omega)]
      congr 1; omega

theorem unpackMoving_ok {buf : List Byte} : ∀ {outs : List (Nat × List Byte)} {p : Nat},
    Hold outs → p + width outs ≤ 8 * buf.length →
    ∃ r, unpackMoving buf outs p = .ok r ∧ r.map (·.1) = outs.map (·.1) ∧ Placed r p buf ∧ Kept outs r := by
  intro outs
  induction outs with
  | nil =>
    intro p _ _
    exact ⟨[], rfl, rfl, fun pre w f post e => absurd e (by simp), fun i w f g h => nomatch h⟩
  | cons x l ih =>
    intro p hh hl
    obtain ⟨w, f⟩ := x
    rw [Hold.cons] at hh
    rw [width_cons] at hl
    simp only at hh hl
    obtain ⟨o, a1, a2, a3⟩ := C120_bit_copy buf w p 0 f (by omega) (by omega) hh.1.2
    obtain ⟨r, c1, c2, c3, c4⟩ := ih (p := p + w) hh.2 (by omega)
    refine ⟨(w, o) :: r, ?_, ?_, ?_, ?_⟩
    · simp only [unpackMoving, a1, Outcome.ok_bind, c1, Outcome.pure_eq]
    · simp [c2]
    · rw [Placed.cons]
      refine ⟨fun k hk => ?_, c3⟩
      rw [a3 k (by omega), if_pos (by omega), Nat.sub_zero]
    · intro i v f' g hi hj
      cases i with
      | zero =>
        simp only [List.getElem?_cons_zero, Option.some.injEq, Prod.mk.injEq] at hi hj
        obtain ⟨rfl, rfl⟩ := hi
        obtain ⟨-, rfl⟩ := hj
        refine ⟨a2, fun k hk => ?_⟩
        by_cases hk8 : k < 8 * f.length
        · rw [a3 k hk8, if_neg (by omega)]
        · have hz : ∀ (l : List Byte), l.length = f.length → bit l k = false := by
            intro l hl
            simp only [bit, List.getD_eq_getElem?_getD]
            rw [List.getElem?_eq_none (by omega)]
            simp
          rw [hz o a2, hz f rfl]
      | succ i =>
        simp only [List.getElem?_cons_succ] at hi hj
        exact c4 i v f' g hi hj

/-- C120: every message is packed and unpacked right that way, whatever its layout; nothing but the bits of the message changes in the buffer, and
nothing but the bits of the fields in the variables. -/
theorem C120_messages (fields outs : List (Nat × List Byte)) (buf : List Byte) (hf : fields.map (·.1) = outs.map (·.1)) (h1 : Hold fields)
    (h2 : Hold outs) (hl : width fields ≤ 8 * buf.length) (hs : buf.length < 2 ^ 61) :
    ∃ buf' r, packMoving fields 0 buf = .ok buf' ∧ buf'.length = buf.length ∧ Placed fields 0 buf' ∧
      (∀ i, i < 8 * buf.length → width fields ≤ i → bit buf' i = bit buf i) ∧
      unpackMoving buf' outs 0 = .ok r ∧ SameFields fields r ∧ Kept outs r := by
  obtain ⟨buf', a1, a2, a3, a4⟩ := packMoving_ok (p := 0) h1 (by omega) hs
  have hw : width outs = width fields := by rw [width, width, hf]
  obtain ⟨r, b1, b2, b3, b4⟩ := unpackMoving_ok (p := 0) (buf := buf') h2 (by omega)
  refine ⟨buf', r, a1, a2, a4, fun i hi h => a3 i hi (by omega), b1, ⟨by rw [hf, b2], ?_⟩, b4⟩
  intro i w f g hi hj k hk
  obtain ⟨po1, s1⟩ := getElem_split hi
  obtain ⟨po2, s2⟩ := getElem_split hj
  have c1 := a4 _ _ _ _ s1 k hk
  have c2 := b3 _ _ _ _ s2 k hk
  have : width (fields.take i) = width (r.take i) := by
    rw [width, width, List.map_take, List.map_take, hf, b2]
  rw [← c1, ← c2, this]

/-- The message of 32, 2, 3 and 19 bits that the plain calls spoil (Props/Message). -/
example : (do
    let m ← packMoving [(32, [1, 2, 3, 4]), (2, [3]), (3, [5]), (19, [0xCD, 0xAB, 0x07])] 0 (List.replicate 7 0)
    unpackMoving m [(32, [0, 0, 0, 0]), (2, [0]), (3, [0]), (19, [0, 0, 0])] 0) =
    .ok [(32, [1, 2, 3, 4]), (2, [3]), (3, [5]), (19, [0xCD, 0xAB, 0x07])] := by decide +kernel

/-- Three bits from bit 6 to bit 13 of a longer buffer. -/
example : moveBits [0xC0, 0x01] 6 13 3 [0, 0, 0xFF] = .ok [0, 0xE0, 0xFF] := by decide +kernel

end Uavcan.CopyBits
