import Verif.Model.SatMath
import Verif.Lemmas.CInt

/-! Lemmas about the model of `util/math.hpp`. -/

namespace Uavcan.SatMath
open Uavcan.Spec

theorem signedResult_ok {w : Nat} (hw : 2 ≤ w) {x : Int} (h : InS w x) : signedResult w x = .ok x := by
  obtain ⟨-, h2, -, -⟩ := promW_facts hw
  simp only [InS, intMin, intMax] at h
  exact if_pos (by simp only [InS, intMin, intMax]; omega)

theorem addD_ok {w : Nat} (hw : 2 ≤ w) {l r : Int} (hl : InS w l) (hr : InS w r) (h0 : 0 ≤ r) :
    addD w l r = .ok (signedClamp w (l + r)) := by
  have hp := pow_pos' (w - 1)
  have hl' := hl
  have hr' := hr
  simp only [InS, intMin, intMax] at hl' hr'
  unfold addD
  by_cases h : 0 ≤ l
  · have e1 : signedResult w (intMax w - l) = .ok (intMax w - l) :=
      signedResult_ok hw (by simp only [InS, intMin, intMax]; omega)
    simp only [ge_iff_le, h, if_true, e1, Outcome.ok_bind]
    by_cases h2 : r > intMax w - l
    · simp only [h2, if_true, Outcome.pure_eq]
      simp only [intMax] at *
      simp only [signedClamp, clamp, Outcome.ok.injEq]; omega
    · have hs : InS w (l + r) := by simp only [InS, intMin, intMax] at *; omega
      simp only [h2, if_false, signedResult_ok hw hs, Outcome.ok_bind, Outcome.pure_eq, castS_of_inS (by omega) hs]
      simp only [InS, intMin, intMax] at hs
      simp only [signedClamp, clamp, Outcome.ok.injEq]; omega
  · have hs : InS w (l + r) := by simp only [InS, intMin, intMax] at *; omega
    simp only [ge_iff_le, h, if_false, signedResult_ok hw hs, Outcome.ok_bind, Outcome.pure_eq,
      castS_of_inS (by omega) hs]
    simp only [InS, intMin, intMax] at hs
    simp only [signedClamp, clamp, Outcome.ok.injEq]; omega

/-- `_saturating_sub_d` is right whenever `abs` is right about the one value it is asked for. -/
theorem subD_ok {w : Nat} (hw : 2 ≤ w) {abs : Nat → Int → Outcome Int} {l r : Int} (hl : InS w l)
    (hr : InS w r) (h0 : 0 ≤ r) (habs : l ≤ 0 → abs (promW w) (intMin w - l) = .ok (l - intMin w)) :
    subD abs w l r = .ok (signedClamp w (l - r)) := by
  have hp := pow_pos' (w - 1)
  have hl' := hl
  have hr' := hr
  simp only [InS, intMin, intMax] at hl' hr'
  unfold subD
  by_cases h : l ≤ 0
  · have e1 : signedResult w (intMin w - l) = .ok (intMin w - l) :=
      signedResult_ok hw (by simp only [InS, intMin, intMax]; omega)
    simp only [h, if_true, e1, Outcome.ok_bind, habs h, ge_iff_le]
    by_cases h2 : l - intMin w ≤ r
    · simp only [h2, if_true, Outcome.pure_eq]
      simp only [intMin] at *
      simp only [signedClamp, clamp, Outcome.ok.injEq]; omega
    · have hs : InS w (l - r) := by simp only [InS, intMin, intMax] at *; omega
      simp only [h2, if_false, signedResult_ok hw hs, Outcome.ok_bind, Outcome.pure_eq, castS_of_inS (by omega) hs]
      simp only [InS, intMin, intMax] at hs
      simp only [signedClamp, clamp, Outcome.ok.injEq]; omega
  · have hs : InS w (l - r) := by simp only [InS, intMin, intMax] at *; omega
    simp only [h, if_false, signedResult_ok hw hs, Outcome.ok_bind, Outcome.pure_eq,
      castS_of_inS (by omega) hs]
    simp only [InS, intMin, intMax] at hs
    simp only [signedClamp, clamp, Outcome.ok.injEq]; omega

theorem strictAbs_room {w : Nat} (hw : 2 ≤ w) {l : Int} (hl : InS w l) (h : w < 32 ∨ l ≠ 0) :
    l ≤ 0 → strictAbs (promW w) (intMin w - l) = .ok (l - intMin w) := by
  intro h0
  obtain ⟨h1, h2, h3, h4⟩ := promW_facts hw
  simp only [InS, intMin, intMax] at hl
  have hne : intMin w - l ≠ intMin (promW w) := by
    simp only [intMin]
    rcases Nat.lt_or_ge w 32 with h5 | h5
    · have := h3 h5; omega
    · rw [h4 h5]; omega
  rw [strictAbs, if_neg hne]
  by_cases hlt : intMin w - l < 0
  · rw [if_pos hlt]; congr 1; omega
  · rw [if_neg hlt]; simp only [intMin] at *; congr 1; omega

theorem wrapAbs_room {w : Nat} (hw : 2 ≤ w) {l : Int} (hl : InS w l) (h : w < 32 ∨ l ≠ 0) :
    l ≤ 0 → wrapAbs (promW w) (intMin w - l) = .ok (l - intMin w) := by
  intro h0
  have := strictAbs_room hw hl h h0
  simp only [strictAbs] at this
  simp only [wrapAbs]
  split at this
  · simp at this
  · rename_i hne; rw [if_neg hne]; exact this

theorem addS_ok {w : Nat} (hw : 2 ≤ w) {abs : Nat → Int → Outcome Int} {l r : Int} (hl : InS w l)
    (hr : InS w r) (habs : r < 0 → l ≤ 0 → abs (promW w) (intMin w - l) = .ok (l - intMin w)) :
    addS abs w l r = .ok (signedClamp w (l + r)) := by
  have hp := pow_pos' (w - 1)
  have hl' := hl
  have hr' := hr
  simp only [InS, intMin, intMax] at hl' hr'
  unfold addS
  by_cases h : 0 ≤ r
  · simp only [ge_iff_le, h, if_true]; exact addD_ok hw hl hr h
  · simp only [ge_iff_le, h, if_false]
    by_cases h2 : r = intMin w
    · have hm : InS w (intMax w) := by simp only [InS, intMin, intMax]; omega
      simp only [h2, if_true, subD_ok hw hl hm (by simp only [intMax]; omega) (habs (by omega)),
        Outcome.ok_bind]
      split
      · rename_i h3
        have hs : InS w (signedClamp w (l - intMax w) - 1) := by
          simp only [InS, intMin, intMax, signedClamp, clamp] at *; omega
        rw [signedResult_ok hw hs]
        simp only [Outcome.ok_bind, Outcome.pure_eq, castS_of_inS (by omega) hs]
        simp only [intMin, intMax, signedClamp, clamp, Outcome.ok.injEq] at *; omega
      · rename_i h3
        simp only [intMin, intMax, signedClamp, clamp, Outcome.pure_eq, Outcome.ok.injEq] at *; omega
    · have hs : InS w (-r) := by simp only [InS, intMin, intMax] at *; omega
      simp only [h2, if_false, signedResult_ok hw hs, Outcome.ok_bind, castS_of_inS (by omega) hs]
      rw [subD_ok hw hl hs (by omega) (habs (by omega))]
      congr 2; omega

theorem subS_ok {w : Nat} (hw : 2 ≤ w) {abs : Nat → Int → Outcome Int} {l r : Int} (hl : InS w l)
    (hr : InS w r) (habs : 0 ≤ r → l ≤ 0 → abs (promW w) (intMin w - l) = .ok (l - intMin w)) :
    subS abs w l r = .ok (signedClamp w (l - r)) := by
  have hp := pow_pos' (w - 1)
  have hl' := hl
  have hr' := hr
  simp only [InS, intMin, intMax] at hl' hr'
  unfold subS
  by_cases h : 0 ≤ r
  · simp only [ge_iff_le, h, if_true]; exact subD_ok hw hl hr h (habs h)
  · simp only [ge_iff_le, h, if_false]
    by_cases h2 : r = intMin w
    · have hm : InS w (intMax w) := by simp only [InS, intMin, intMax]; omega
      simp only [h2, if_true, addD_ok hw hl hm (by simp only [intMax]; omega), Outcome.ok_bind]
      split
      · rename_i h3
        have hs : InS w (signedClamp w (l + intMax w) + 1) := by
          simp only [InS, intMin, intMax, signedClamp, clamp] at *; omega
        rw [signedResult_ok hw hs]
        simp only [Outcome.ok_bind, Outcome.pure_eq, castS_of_inS (by omega) hs]
        simp only [intMin, intMax, signedClamp, clamp, Outcome.ok.injEq] at *; omega
      · rename_i h3
        simp only [intMin, intMax, signedClamp, clamp, Outcome.pure_eq, Outcome.ok.injEq] at *; omega
    · have hs : InS w (-r) := by simp only [InS, intMin, intMax] at *; omega
      simp only [h2, if_false, signedResult_ok hw hs, Outcome.ok_bind, castS_of_inS (by omega) hs]
      rw [addD_ok hw hl hs (by omega)]
      congr 2

/-- The failing corner: a zero left operand in a type at least as wide as `int`. -/
theorem subD_zero_strict {w : Nat} (hw : 32 ≤ w) (r : Int) : subD strictAbs w 0 r = .ub .absOfMin := by
  obtain ⟨-, -, -, h4⟩ := promW_facts (w := w) (by omega)
  have hp := pow_pos' (w - 1)
  have e1 : signedResult w (intMin w - 0) = .ok (intMin w) := by
    rw [Int.sub_zero]; exact signedResult_ok (by omega) (by simp only [InS, intMin, intMax]; omega)
  simp only [subD, Int.le_refl, if_true, e1, Outcome.ok_bind, strictAbs, h4 hw, Outcome.ub_bind]

theorem subD_zero_wrap {w : Nat} (hw : 32 ≤ w) {r : Int} (hr : InS w r) :
    subD wrapAbs w 0 r = .ok (intMin w) := by
  obtain ⟨-, -, -, h4⟩ := promW_facts (w := w) (by omega)
  have hp := pow_pos' (w - 1)
  have e1 : signedResult w (intMin w - 0) = .ok (intMin w) := by
    rw [Int.sub_zero]; exact signedResult_ok (by omega) (by simp only [InS, intMin, intMax]; omega)
  simp only [subD, Int.le_refl, if_true, e1, Outcome.ok_bind, wrapAbs, h4 hw, ge_iff_le, hr.1, Outcome.pure_eq]

theorem addS_zero_strict {w : Nat} (hw : 32 ≤ w) {r : Int} (hr : InS w r) (h : r < 0) :
    addS strictAbs w 0 r = .ub .absOfMin := by
  have hp := pow_pos' (w - 1)
  unfold addS
  rw [if_neg (by omega)]
  split
  · simp only [subD_zero_strict hw, Outcome.ub_bind]
  · rename_i h2
    have hs : InS w (-r) := by simp only [InS, intMin, intMax] at *; omega
    simp only [signedResult_ok (by omega : 2 ≤ w) hs, Outcome.ok_bind, subD_zero_strict hw]

theorem addS_zero_wrap {w : Nat} (hw : 32 ≤ w) {r : Int} (hr : InS w r) (h : r < 0) :
    addS wrapAbs w 0 r = .ok (intMin w) := by
  have hp := pow_pos' (w - 1)
  unfold addS
  rw [if_neg (by omega)]
  split
  · have hm : InS w (intMax w) := by simp only [InS, intMin, intMax]; omega
    simp only [subD_zero_wrap hw hm, Outcome.ok_bind, gt_iff_lt, Int.lt_irrefl, if_false, Outcome.pure_eq]
  · rename_i h2
    have hs : InS w (-r) := by simp only [InS, intMin, intMax] at *; omega
    simp only [signedResult_ok (by omega : 2 ≤ w) hs, Outcome.ok_bind, castS_of_inS (by omega) hs,
      subD_zero_wrap hw hs]

theorem unsignedResult_ok {w : Nat} {x : Int} (h : InU w x) : unsignedResult w x = .ok x := by
  unfold unsignedResult
  split
  · rename_i hw
    simp only [intWidth] at hw
    have h1 := pow_le_pow_right' (m := w) (n := 31) (by omega)
    have hpr : promW w = 32 := by simp only [promW, intWidth]; omega
    simp only [InU, uintMax] at h
    exact if_pos (by simp only [hpr, InS, intMin, intMax]; omega)
  · rw [castU_of_inU h]

theorem addU_ok {w : Nat} {l r : Int} (hl : InU w l) (hr : InU w r) :
    addU w l r = .ok (unsignedClamp w (l + r)) := by
  have h1 : InU w (uintMax w - l) := by simp only [InU, uintMax] at *; omega
  unfold addU
  simp only [unsignedResult_ok h1, Outcome.ok_bind, castU_of_inU h1]
  split
  · simp only [InU, uintMax, unsignedClamp, clamp, Outcome.pure_eq, Outcome.ok.injEq] at *; omega
  · have h2 : InU w (l + r) := by simp only [InU, uintMax] at *; omega
    simp only [unsignedResult_ok h2, Outcome.ok_bind, castU_of_inU h2, Outcome.pure_eq, Outcome.ok.injEq]
    simp only [InU, uintMax, unsignedClamp, clamp] at *; omega

theorem subU_ok {w : Nat} {l r : Int} (hl : InU w l) (hr : InU w r) :
    subU w l r = .ok (unsignedClamp w (l - r)) := by
  unfold subU
  split
  · simp only [InU, uintMax, unsignedClamp, clamp, Outcome.pure_eq, Outcome.ok.injEq] at *; omega
  · have h2 : InU w (l - r) := by simp only [InU, uintMax] at *; omega
    simp only [unsignedResult_ok h2, Outcome.ok_bind, castU_of_inU h2, Outcome.pure_eq, Outcome.ok.injEq]
    simp only [InU, uintMax, unsignedClamp, clamp] at *; omega

theorem convU_inU (w : Nat) (x : Int) : InU w (convU w x) := by
  unfold convU
  split
  · rename_i h; subst h; split <;> decide
  · exact castU_inU w x

theorem convU_of_inU {w : Nat} {x : Int} (h : InU w x) : convU w x = x := by
  unfold convU
  split
  · rename_i hw; subst hw
    simp only [InU, uintMax] at h
    split <;> omega
  · exact castU_of_inU h

/-- Except for `bool`, conversion is the remainder. -/
theorem convU_eq {w : Nat} (hw : w ≠ 1) (x : Int) : convU w x = x % 2 ^ w := by rw [convU, if_neg hw, castU]

/-- Exactly what the mixed addition computes. -/
theorem addM_conv {w : Nat} {l : Int} (hl : InU w l) (r : Int) :
    addM w l r = .ok (unsignedClamp w (if 0 ≤ r then l + convU w r else l - convU w r)) := by
  unfold addM
  split
  · rw [addU_ok hl (convU_inU w r)]
  · rw [subU_ok hl (convU_inU w r)]

/-- Exactly what the mixed subtraction computes. -/
theorem subM_conv {w : Nat} {l : Int} (hl : InU w l) (r : Int) :
    subM w l r = .ok (unsignedClamp w (if 0 ≤ r then l - convU w r else l + convU w r)) := by
  unfold subM
  split
  · rw [subU_ok hl (convU_inU w r)]
  · rw [addU_ok hl (convU_inU w r)]

theorem addM_eq {w : Nat} {l : Int} (hw : w ≠ 1) (hl : InU w l) (r : Int) :
    addM w l r = .ok (unsignedClamp w (if 0 ≤ r then l + r % 2 ^ w else l - r % 2 ^ w)) := by
  rw [addM_conv hl, convU_eq hw]

theorem subM_eq {w : Nat} {l : Int} (hw : w ≠ 1) (hl : InU w l) (r : Int) :
    subM w l r = .ok (unsignedClamp w (if 0 ≤ r then l - r % 2 ^ w else l + r % 2 ^ w)) := by
  rw [subM_conv hl, convU_eq hw]

end Uavcan.SatMath
