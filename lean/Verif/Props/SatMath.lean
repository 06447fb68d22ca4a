import Verif.Lemmas.SatMath

/-!
# C01–C05: saturating arithmetic

The specification is `Spec.clamp` on mathematical integers. Where the code does not meet it, the exact
set of operands on which it does is given as an equivalence, with the full statement refuted beside it.
-/

namespace Uavcan.SatMath
open Uavcan.Spec

/-! ## C01 signed addition -/

/-- The full statement of C01, for a given reading of `std::abs`. -/
def C01_Statement (abs : Nat → Int → Outcome Int) : Prop :=
  ∀ w, 2 ≤ w → ∀ a b, IsInt w a → IsInt w b → addS abs w a b = .ok (signedClamp w (a + b))

/-- C01 (partial). Signed `saturating_add` is defined and exact **iff** the type is narrower than
`int`, or the left operand is not zero, or the right operand is not negative.
Missing from the full statement: `0 + b` with `b < 0` in `int32_t` and wider, which is undefined. -/
theorem C01_signed_add_partial (w : Nat) (hw : 2 ≤ w) (a b : Int) (ha : IsInt w a) (hb : IsInt w b) :
    addS strictAbs w a b = .ok (signedClamp w (a + b)) ↔ (w < 32 ∨ a ≠ 0 ∨ 0 ≤ b) := by
  constructor
  · intro h
    apply Classical.byContradiction
    intro hn
    have h0 : a = 0 := by omega
    subst h0
    rw [addS_zero_strict (by omega) hb (by omega)] at h
    cases h
  · intro h
    exact addS_ok hw ha hb (fun hb0 => strictAbs_room hw ha (by omega))

/-- In the remaining case the behaviour is undefined (strict reading of `std::abs`). -/
theorem C01_signed_add_undefined (w : Nat) (hw : 32 ≤ w) (b : Int) (hb : IsInt w b) (h : b < 0) :
    addS strictAbs w 0 b = .ub .absOfMin :=
  addS_zero_strict hw hb h

/-- On wrapping hardware the same call returns the type's minimum, so it is exact **iff** additionally
`b` is the minimum. -/
theorem C01_signed_add_wrapping_partial (w : Nat) (hw : 2 ≤ w) (a b : Int) (ha : IsInt w a)
    (hb : IsInt w b) :
    addS wrapAbs w a b = .ok (signedClamp w (a + b)) ↔
      (w < 32 ∨ a ≠ 0 ∨ 0 ≤ b ∨ b = -(2 ^ (w - 1))) := by
  have hp := pow_pos' (w - 1)
  by_cases hc : w < 32 ∨ a ≠ 0 ∨ 0 ≤ b
  · constructor
    · intro _; omega
    · intro _; exact addS_ok hw ha hb (fun hb0 => wrapAbs_room hw ha (by omega))
  · have h0 : a = 0 := by omega
    subst h0
    rw [addS_zero_wrap (by omega) hb (by omega)]
    simp only [IsInt] at ha hb
    simp only [Outcome.ok.injEq, intMin, signedClamp, clamp]
    omega

/-- The full statement of C01 fails under both readings of `std::abs`; the witness is
`int32_t: 0 + (-1)`. -/
theorem C01_full_statement_fails : ¬ C01_Statement strictAbs ∧ ¬ C01_Statement wrapAbs := by
  constructor
  · intro h
    have := h 32 (by decide) 0 (-1) (by decide) (by decide)
    revert this; decide
  · intro h
    have := h 32 (by decide) 0 (-1) (by decide) (by decide)
    revert this; decide

-- non-vacuity: an `int8_t` that saturates on each side and one that does not, and `int64_t`
example : addS strictAbs 8 100 100 = .ok 127 ∧ addS strictAbs 8 (-100) (-100) = .ok (-128) ∧
    addS strictAbs 8 100 (-101) = .ok (-1) ∧ addS strictAbs 8 0 (-1) = .ok (-1) ∧
    addS strictAbs 64 (2 ^ 63 - 1) 1 = .ok (2 ^ 63 - 1) ∧
    addS wrapAbs 64 0 (-1) = .ok (-(2 ^ 63)) := by decide
example : IsInt 64 (-(2 ^ 63)) ∧ IsInt 64 5 ∧ ((64 : Nat) < 32 ∨ (5 : Int) ≠ 0 ∨ (0 : Int) ≤ -(2 ^ 63)) ∧
    addS strictAbs 64 5 (-(2 ^ 63)) = .ok (5 - 2 ^ 63) := by decide

/-! ## C02 signed subtraction -/

/-- The full statement of C02, for a given reading of `std::abs`. -/
def C02_Statement (abs : Nat → Int → Outcome Int) : Prop :=
  ∀ w, 2 ≤ w → ∀ a b, IsInt w a → IsInt w b → subS abs w a b = .ok (signedClamp w (a - b))

/-- C02 (partial). Signed `saturating_sub` is defined and exact **iff** the type is narrower than
`int`, or the left operand is not zero, or the right operand is negative.
Missing from the full statement: `0 - b` with `b ≥ 0` (so also `0 - 0`) in `int32_t` and wider. -/
theorem C02_signed_sub_partial (w : Nat) (hw : 2 ≤ w) (a b : Int) (ha : IsInt w a) (hb : IsInt w b) :
    subS strictAbs w a b = .ok (signedClamp w (a - b)) ↔ (w < 32 ∨ a ≠ 0 ∨ b < 0) := by
  constructor
  · intro h
    apply Classical.byContradiction
    intro hn
    have h0 : a = 0 := by omega
    subst h0
    rw [subS, if_pos (by omega), subD_zero_strict (by omega)] at h
    cases h
  · intro h
    exact subS_ok hw ha hb (fun hb0 => strictAbs_room hw ha (by omega))

/-- In the remaining case the behaviour is undefined (strict reading of `std::abs`). -/
theorem C02_signed_sub_undefined (w : Nat) (hw : 32 ≤ w) (b : Int) (h : 0 ≤ b) :
    subS strictAbs w 0 b = .ub .absOfMin := by
  rw [subS, if_pos h, subD_zero_strict hw]

/-- On wrapping hardware `0 - b` is the type's minimum for every `b ≥ 0`, which is never the right
value. -/
theorem C02_signed_sub_wrapping_partial (w : Nat) (hw : 2 ≤ w) (a b : Int) (ha : IsInt w a)
    (hb : IsInt w b) :
    subS wrapAbs w a b = .ok (signedClamp w (a - b)) ↔ (w < 32 ∨ a ≠ 0 ∨ b < 0) := by
  have hp := pow_pos' (w - 1)
  by_cases hc : w < 32 ∨ a ≠ 0 ∨ b < 0
  · constructor
    · intro _; exact hc
    · intro _; exact subS_ok hw ha hb (fun hb0 => wrapAbs_room hw ha (by omega))
  · have h0 : a = 0 := by omega
    subst h0
    rw [subS, if_pos (by omega), subD_zero_wrap (by omega) hb]
    simp only [IsInt] at ha hb
    simp only [Outcome.ok.injEq, intMin, signedClamp, clamp]
    omega

/-- The full statement of C02 fails under both readings of `std::abs`; the witness is
`int64_t: 0 - 0`. -/
theorem C02_full_statement_fails : ¬ C02_Statement strictAbs ∧ ¬ C02_Statement wrapAbs := by
  constructor
  · intro h
    have := h 64 (by decide) 0 0 (by decide) (by decide)
    revert this; decide
  · intro h
    have := h 64 (by decide) 0 0 (by decide) (by decide)
    revert this; decide

example : subS strictAbs 8 (-100) 100 = .ok (-128) ∧ subS strictAbs 8 100 (-128) = .ok 127 ∧
    subS strictAbs 8 (-1) (-128) = .ok 127 ∧ subS strictAbs 8 (-2) (-128) = .ok 126 ∧
    subS strictAbs 8 0 127 = .ok (-127) ∧ subS strictAbs 32 (-1) (2 ^ 31 - 1) = .ok (-(2 ^ 31)) ∧
    subS wrapAbs 32 0 1 = .ok (-(2 ^ 31)) := by decide
example : IsInt 32 (-1) ∧ IsInt 32 (2 ^ 31 - 1) := by decide

/-! ## C03 unsigned addition and subtraction -/

/-- C03. Unsigned `saturating_add` and `saturating_sub` are defined and exact for every width,
including `bool` (`w = 1`). -/
theorem C03_unsigned_add_sub (w : Nat) (a b : Int) (ha : IsUInt w a) (hb : IsUInt w b) :
    addU w a b = .ok (unsignedClamp w (a + b)) ∧ subU w a b = .ok (unsignedClamp w (a - b)) :=
  ⟨addU_ok ha hb, subU_ok ha hb⟩

example : addU 8 200 100 = .ok 255 ∧ addU 8 200 55 = .ok 255 ∧ addU 8 1 2 = .ok 3 ∧
    subU 8 5 6 = .ok 0 ∧ subU 64 6 5 = .ok 1 ∧ addU 1 1 1 = .ok 1 ∧
    addU 32 (2 ^ 32 - 1) 1 = .ok (2 ^ 32 - 1) := by decide
example : IsUInt 8 200 ∧ IsUInt 8 100 := by decide

/-! ## C04 unsigned plus signed -/

/-- The full statement of C04: two independent widths. -/
def C04_Statement : Prop :=
  ∀ wl wr, 2 ≤ wl → 2 ≤ wr → ∀ a b, IsUInt wl a → IsInt wr b →
    addM wl a b = .ok (unsignedClamp wl (a + b))

/-- C04 (partial), equal widths (the only instantiation the library itself uses). The mixed sum is
exact **iff** `b` is non-negative, or `b` is the minimum, or the exact sum is not positive.
Missing from the full statement: all other negative `b`, where the code subtracts `2^w + b` instead of
`-b`. -/
theorem C04_mixed_add_partial (w : Nat) (hw : 2 ≤ w) (a b : Int) (ha : IsUInt w a) (hb : IsInt w b) :
    addM w a b = .ok (unsignedClamp w (a + b)) ↔ (0 ≤ b ∨ b = -(2 ^ (w - 1)) ∨ a + b ≤ 0) := by
  have hp := pow_pos' (w - 1)
  have hd := two_pow_succ (w := w) (by omega)
  rw [addM_eq (by omega) ha]
  simp only [IsUInt, IsInt] at ha hb
  by_cases h : 0 ≤ b
  · simp only [h, if_true, Outcome.ok.injEq, true_or, iff_true]
    rw [Int.emod_eq_of_lt h (by omega)]
  · have hm : b % 2 ^ w = b + 2 ^ w := castU_neg (by omega) (by omega)
    simp only [h, if_false, Outcome.ok.injEq, hm, unsignedClamp, clamp, false_or]
    omega

/-- C04 (partial), arbitrary widths other than that of `bool`: the exact set of operands on which the mixed sum is right. -/
theorem C04_mixed_add_any_width_partial (wl : Nat) (hw : wl ≠ 1) (a b : Int) (ha : IsUInt wl a) :
    addM wl a b = .ok (unsignedClamp wl (a + b)) ↔
      if 0 ≤ b then b < 2 ^ wl ∨ 2 ^ wl - 1 ≤ a + b % 2 ^ wl
      else b % 2 ^ wl = -b ∨ (a ≤ b % 2 ^ wl ∧ a + b ≤ 0) := by
  have hp := pow_pos' wl
  have h1 := Int.emod_nonneg b (b := 2 ^ wl) (by omega)
  have h2 := Int.emod_lt_of_pos b hp
  rw [addM_eq (by omega) ha]
  simp only [IsUInt] at ha
  by_cases h : 0 ≤ b
  · simp only [h, if_true, Outcome.ok.injEq, unsignedClamp, clamp]
    by_cases h3 : b < 2 ^ wl
    · rw [Int.emod_eq_of_lt h h3]; simp [h3]
    · omega
  · simp only [h, if_false, Outcome.ok.injEq, unsignedClamp, clamp]
    omega

/-- C04 (partial): for `bool` (`wl = 1`), to which every number but 0 is converted as `true`, the sum is always right. -/
theorem C04_mixed_add_bool_partial (a b : Int) (ha : IsUInt 1 a) : addM 1 a b = .ok (unsignedClamp 1 (a + b)) := by
  rw [addM_conv ha]
  simp only [IsUInt] at ha
  simp only [convU, if_true, Outcome.ok.injEq, unsignedClamp, clamp]
  split <;> split <;> omega

/-- The full statement of C04 fails: `uint64_t(5) + int64_t(-3)` is 0 instead of 2. -/
theorem C04_full_statement_fails : ¬ C04_Statement := by
  intro h
  have := h 64 64 (by decide) (by decide) 5 (-3) (by decide) (by decide)
  revert this; decide

example : addM 64 5 3 = .ok 8 ∧ addM 64 5 (-3) = .ok 0 ∧ addM 64 5 (-7) = .ok 0 ∧
    addM 64 (2 ^ 64 - 1) (-(2 ^ 63)) = .ok (2 ^ 63 - 1) ∧ addM 64 (2 ^ 64 - 1) 1 = .ok (2 ^ 64 - 1) ∧
    addM 8 0 256 = .ok 0 := by decide
example : IsUInt 64 5 ∧ IsInt 64 (-7) ∧ (5 : Int) + (-7) ≤ 0 := by decide

/-! ## C05 unsigned minus signed -/

/-- The full statement of C05: two independent widths. -/
def C05_Statement : Prop :=
  ∀ wl wr, 2 ≤ wl → 2 ≤ wr → ∀ a b, IsUInt wl a → IsInt wr b →
    subM wl a b = .ok (unsignedClamp wl (a - b))

/-- C05 (partial), equal widths. The mixed difference is exact **iff** `b` is non-negative, or `b` is
the minimum, or the exact difference reaches the type's maximum.
Missing from the full statement: all other negative `b`, where the code adds `2^w + b` instead of
`-b` and so saturates or wraps to a value that is too large. -/
theorem C05_mixed_sub_partial (w : Nat) (hw : 2 ≤ w) (a b : Int) (ha : IsUInt w a) (hb : IsInt w b) :
    subM w a b = .ok (unsignedClamp w (a - b)) ↔
      (0 ≤ b ∨ b = -(2 ^ (w - 1)) ∨ 2 ^ w - 1 ≤ a - b) := by
  have hp := pow_pos' (w - 1)
  have hd := two_pow_succ (w := w) (by omega)
  rw [subM_eq (by omega) ha]
  simp only [IsUInt, IsInt] at ha hb
  by_cases h : 0 ≤ b
  · simp only [h, if_true, Outcome.ok.injEq, true_or, iff_true]
    rw [Int.emod_eq_of_lt h (by omega)]
  · have hm : b % 2 ^ w = b + 2 ^ w := castU_neg (by omega) (by omega)
    simp only [h, if_false, Outcome.ok.injEq, hm, unsignedClamp, clamp, false_or]
    omega

/-- C05 (partial), arbitrary widths other than that of `bool`. -/
theorem C05_mixed_sub_any_width_partial (wl : Nat) (hw : wl ≠ 1) (a b : Int) (ha : IsUInt wl a) :
    subM wl a b = .ok (unsignedClamp wl (a - b)) ↔
      if 0 ≤ b then b < 2 ^ wl ∨ a ≤ b % 2 ^ wl
      else b % 2 ^ wl = -b ∨ (2 ^ wl - 1 ≤ a + b % 2 ^ wl ∧ 2 ^ wl - 1 ≤ a - b) := by
  have hp := pow_pos' wl
  have h1 := Int.emod_nonneg b (b := 2 ^ wl) (by omega)
  have h2 := Int.emod_lt_of_pos b hp
  rw [subM_eq (by omega) ha]
  simp only [IsUInt] at ha
  by_cases h : 0 ≤ b
  · simp only [h, if_true, Outcome.ok.injEq, unsignedClamp, clamp]
    by_cases h3 : b < 2 ^ wl
    · rw [Int.emod_eq_of_lt h h3]; simp [h3]
    · omega
  · simp only [h, if_false, Outcome.ok.injEq, unsignedClamp, clamp]
    omega

/-- C05 (partial): for `bool` the difference is always right. -/
theorem C05_mixed_sub_bool_partial (a b : Int) (ha : IsUInt 1 a) : subM 1 a b = .ok (unsignedClamp 1 (a - b)) := by
  rw [subM_conv ha]
  simp only [IsUInt] at ha
  simp only [convU, if_true, Outcome.ok.injEq, unsignedClamp, clamp]
  split <;> split <;> omega

/-- `bool`: `false + 2` is `true`. -/
example : addM 1 0 2 = .ok 1 ∧ subM 1 1 2 = .ok 0 ∧ subM 1 0 (-4) = .ok 1 := by decide

/-- The full statement of C05 fails: `uint64_t(5) - int64_t(-3)` saturates instead of being 8. -/
theorem C05_full_statement_fails : ¬ C05_Statement := by
  intro h
  have := h 64 64 (by decide) (by decide) 5 (-3) (by decide) (by decide)
  revert this; decide

example : subM 64 5 3 = .ok 2 ∧ subM 64 5 7 = .ok 0 ∧ subM 64 5 (-3) = .ok (2 ^ 64 - 1) ∧
    subM 64 0 (-(2 ^ 63)) = .ok (2 ^ 63) ∧ subM 64 (2 ^ 64 - 2) (-7) = .ok (2 ^ 64 - 1) := by decide
example : IsUInt 64 (2 ^ 64 - 2) ∧ IsInt 64 (-7) ∧ (2 : Int) ^ 64 - 1 ≤ (2 ^ 64 - 2) - (-7) := by decide

end Uavcan.SatMath
