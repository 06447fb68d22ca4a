import Verif.Model.Time
import Verif.Lemmas.SatMath

namespace Uavcan.Time
open Uavcan.Spec SatMath

theorem TimePoint.add_nonneg {w : Nat} (hw : 1 ≤ w) {t d : Int} (ht : IsUInt w t) (hd : IsInt w d) (h0 : 0 ≤ d) :
    (TimePoint.mk t).add w ⟨d⟩ = .ok ⟨min (2 ^ w - 1) (t + d)⟩ := by
  have hp := pow_pos' (w - 1)
  have h2 := two_pow_succ hw
  have hcv : convU w d = d := convU_of_inU (by simp only [IsInt] at hd; simp only [InU, uintMax]; omega)
  simp only [TimePoint.add, Duration.toMicrosecond, addM_conv ht, hcv, h0, if_true, Outcome.map_ok,
    TimePoint.fromMicrosecond, Outcome.ok.injEq, TimePoint.mk.injEq]
  simp only [IsUInt, IsInt] at ht hd
  simp only [unsignedClamp, clamp]
  omega

theorem TimePoint.sub_nonneg {w : Nat} (hw : 1 ≤ w) {t d : Int} (ht : IsUInt w t) (hd : IsInt w d) (h0 : 0 ≤ d) :
    (TimePoint.mk t).sub w ⟨d⟩ = .ok ⟨max 0 (t - d)⟩ := by
  have hp := pow_pos' (w - 1)
  have h2 := two_pow_succ hw
  have hcv : convU w d = d := convU_of_inU (by simp only [IsInt] at hd; simp only [InU, uintMax]; omega)
  simp only [TimePoint.sub, Duration.toMicrosecond, subM_conv ht, hcv, h0, if_true, Outcome.map_ok,
    TimePoint.fromMicrosecond, Outcome.ok.injEq, TimePoint.mk.injEq]
  simp only [IsUInt, IsInt] at ht hd
  simp only [unsignedClamp, clamp]
  omega

theorem sum_nonneg {l : List Int} (h : ∀ d ∈ l, 0 ≤ d) : 0 ≤ l.sum := by
  induction l with
  | nil => simp
  | cons a l ih =>
    have := h a (by simp)
    have := ih (fun d hd => h d (by simp [hd]))
    simp; omega

theorem addD_inS {w : Nat} {l r x : Int} (hw : 2 ≤ w) (h : addD w l r = .ok x) : InS w x := by
  have hp := pow_pos' (w - 1)
  have hc := fun y => castS_inS (w := w) (by omega) y
  have hmax : InS w (intMax w) := by simp only [InS, intMin, intMax]; omega
  unfold addD at h
  simp only [Outcome.pure_eq] at h
  grind [Outcome.bind_eq_ok]

theorem subD_inS {abs : Nat → Int → Outcome Int} {w : Nat} {l r x : Int} (hw : 2 ≤ w)
    (h : subD abs w l r = .ok x) : InS w x := by
  have hp := pow_pos' (w - 1)
  have hc := fun y => castS_inS (w := w) (by omega) y
  have hmin : InS w (intMin w) := by simp only [InS, intMin, intMax]; omega
  unfold subD at h
  simp only [Outcome.pure_eq] at h
  grind [Outcome.bind_eq_ok]

theorem addS_inS {abs : Nat → Int → Outcome Int} {w : Nat} {l r x : Int} (hw : 2 ≤ w)
    (h : addS abs w l r = .ok x) : InS w x := by
  have hc := fun y => castS_inS (w := w) (by omega) y
  unfold addS at h
  simp only [Outcome.pure_eq] at h
  grind [Outcome.bind_eq_ok, addD_inS, subD_inS]

theorem subS_inS {abs : Nat → Int → Outcome Int} {w : Nat} {l r x : Int} (hw : 2 ≤ w)
    (h : subS abs w l r = .ok x) : InS w x := by
  have hc := fun y => castS_inS (w := w) (by omega) y
  unfold subS at h
  simp only [Outcome.pure_eq] at h
  grind [Outcome.bind_eq_ok, addD_inS, subD_inS]

end Uavcan.Time
