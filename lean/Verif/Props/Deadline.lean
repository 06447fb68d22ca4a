import Verif.Props.Time

/-!
# C114: deadlines

What applications do with times and durations: compute when something is due, compare that with the time it is now, and go back.
-/

namespace Uavcan.Time
open Spec SatMath

/-- The property as stated in `properties.jsonl`, for times and durations of `w` bits: adding a duration keeps the order, subtracting it
again gives the time back if the sum is a time at all, durations can be added one by one or at once, and a deadline has passed exactly
when that much time has passed. -/
def C114_Statement (w : Nat) : Prop :=
  ∀ t t' d d', IsUInt w t → IsUInt w t' → IsInt w d → IsInt w d' →
    (t ≤ t' → d ≤ d' → ∃ x y, TimePoint.add w ⟨t⟩ ⟨d⟩ = .ok x ∧ TimePoint.add w ⟨t'⟩ ⟨d'⟩ = .ok y ∧ x.le y = true) ∧
    (t ≤ t' → d ≤ d' → ∃ x y, TimePoint.sub w ⟨t⟩ ⟨d'⟩ = .ok x ∧ TimePoint.sub w ⟨t'⟩ ⟨d⟩ = .ok y ∧ x.le y = true) ∧
    (IsUInt w (t + d) → (TimePoint.add w ⟨t⟩ ⟨d⟩ >>= fun x => x.sub w ⟨d⟩) = .ok ⟨t⟩) ∧
    (IsInt w (d + d') → (TimePoint.add w ⟨t⟩ ⟨d⟩ >>= fun x => x.add w ⟨d'⟩) = TimePoint.add w ⟨t⟩ ⟨d + d'⟩) ∧
    (IsUInt w (t + d) → ∃ x, TimePoint.add w ⟨t⟩ ⟨d⟩ = .ok x ∧ (TimePoint.ge ⟨t'⟩ x = true ↔ d ≤ t' - t))

/-- What the sum is: a negative duration `d` is taken for the number `2^w + d`, which is then subtracted. -/
theorem timeAdd_eq (w : Nat) (hw : 2 ≤ w) (t d : Int) (ht : IsUInt w t) (hd : IsInt w d) :
    TimePoint.add w ⟨t⟩ ⟨d⟩ = .ok ⟨if 0 ≤ d then min (2 ^ w - 1) (t + d) else max 0 (t - (2 ^ w + d))⟩ := by
  have hp := pow_pos' (w - 1)
  have hpw := two_pow_succ (w := w) (by omega)
  simp only [TimePoint.add, Duration.toMicrosecond, addM_eq (by omega : w ≠ 1) ht]
  simp only [IsUInt, IsInt] at ht hd
  show Outcome.ok (TimePoint.fromMicrosecond _) = _
  simp only [TimePoint.fromMicrosecond, Outcome.ok.injEq, TimePoint.mk.injEq]
  by_cases h : 0 ≤ d
  · simp only [h, if_true, unsignedClamp, clamp]
    rw [Int.emod_eq_of_lt h (by omega)]
    omega
  · have hm : d % 2 ^ w = d + 2 ^ w := castU_neg (by omega) (by omega)
    simp only [h, if_false, hm, unsignedClamp, clamp]
    omega

/-- What the difference is. -/
theorem timeSub_eq (w : Nat) (hw : 2 ≤ w) (t d : Int) (ht : IsUInt w t) (hd : IsInt w d) :
    TimePoint.sub w ⟨t⟩ ⟨d⟩ = .ok ⟨if 0 ≤ d then max 0 (t - d) else min (2 ^ w - 1) (t + (2 ^ w + d))⟩ := by
  have hp := pow_pos' (w - 1)
  have hpw := two_pow_succ (w := w) (by omega)
  simp only [TimePoint.sub, Duration.toMicrosecond, subM_eq (by omega : w ≠ 1) ht]
  simp only [IsUInt, IsInt] at ht hd
  show Outcome.ok (TimePoint.fromMicrosecond _) = _
  simp only [TimePoint.fromMicrosecond, Outcome.ok.injEq, TimePoint.mk.injEq]
  by_cases h : 0 ≤ d
  · simp only [h, if_true, unsignedClamp, clamp]
    rw [Int.emod_eq_of_lt h (by omega)]
    omega
  · have hm : d % 2 ^ w = d + 2 ^ w := castU_neg (by omega) (by omega)
    simp only [h, if_false, hm, unsignedClamp, clamp]
    omega

/-- C114, partial: exactly when adding keeps the order: always, if the larger duration is not negative, so in particular for durations
that are not negative. Missing: two negative durations, one of them added to a time near the maximum. -/
theorem C114_add_order_partial (w : Nat) (hw : 2 ≤ w) (t t' d d' : Int) (ht : IsUInt w t) (ht' : IsUInt w t') (hd : IsInt w d)
    (hd' : IsInt w d') (h : t ≤ t') (h' : d ≤ d') :
    ∃ x y, TimePoint.add w ⟨t⟩ ⟨d⟩ = .ok x ∧ TimePoint.add w ⟨t'⟩ ⟨d'⟩ = .ok y ∧
      (x.le y = true ↔ 0 ≤ d' ∨ t ≤ 2 ^ w + d ∨ d' - d ≤ t' - t) := by
  refine ⟨_, _, timeAdd_eq w hw t d ht hd, timeAdd_eq w hw t' d' ht' hd', ?_⟩
  have hp := pow_pos' (w - 1)
  have hpw := two_pow_succ (w := w) (by omega)
  simp only [IsUInt, IsInt, TimePoint.le, decide_eq_true_eq] at *
  omega

/-- C114, partial: exactly when subtracting reverses the order. Missing: two negative durations. -/
theorem C114_sub_order_partial (w : Nat) (hw : 2 ≤ w) (t t' d d' : Int) (ht : IsUInt w t) (ht' : IsUInt w t') (hd : IsInt w d)
    (hd' : IsInt w d') (h : t ≤ t') (h' : d ≤ d') :
    ∃ x y, TimePoint.sub w ⟨t⟩ ⟨d'⟩ = .ok x ∧ TimePoint.sub w ⟨t'⟩ ⟨d⟩ = .ok y ∧
      (x.le y = true ↔ 0 ≤ d' ∨ -1 ≤ t' + d ∨ d' - d ≤ t' - t) := by
  refine ⟨_, _, timeSub_eq w hw t d' ht hd', timeSub_eq w hw t' d ht' hd, ?_⟩
  have hp := pow_pos' (w - 1)
  have hpw := two_pow_succ (w := w) (by omega)
  simp only [IsUInt, IsInt, TimePoint.le, decide_eq_true_eq] at *
  omega

/-- Two negative durations and a time near the maximum: the sum with the larger duration is the smaller one. -/
example : TimePoint.add 64 ⟨2 ^ 64 - 1⟩ ⟨-3⟩ = .ok ⟨2⟩ ∧ TimePoint.add 64 ⟨2 ^ 64 - 1⟩ ⟨-2⟩ = .ok ⟨1⟩ := by decide

example : ∃ x y, TimePoint.add 64 ⟨7⟩ ⟨-3⟩ = .ok x ∧ TimePoint.add 64 ⟨9⟩ ⟨5⟩ = .ok y ∧ x.le y = true := by
  obtain ⟨x, y, a, b, c⟩ := C114_add_order_partial 64 (by decide) 7 9 (-3) 5 (by decide) (by decide) (by decide) (by decide) (by decide)
    (by decide)
  exact ⟨x, y, a, b, c.2 (.inl (by decide))⟩

/-- C114: for one and the same duration, of either sign, later times stay later, both when it is added and when it is subtracted. -/
theorem C114_same_duration (w : Nat) (hw : 2 ≤ w) (t t' d : Int) (ht : IsUInt w t) (ht' : IsUInt w t') (hd : IsInt w d) (h : t ≤ t') :
    (∃ x y, TimePoint.add w ⟨t⟩ ⟨d⟩ = .ok x ∧ TimePoint.add w ⟨t'⟩ ⟨d⟩ = .ok y ∧ x.le y = true) ∧
    ∃ x y, TimePoint.sub w ⟨t⟩ ⟨d⟩ = .ok x ∧ TimePoint.sub w ⟨t'⟩ ⟨d⟩ = .ok y ∧ x.le y = true := by
  obtain ⟨x, y, a, b, c⟩ := C114_add_order_partial w hw t t' d d ht ht' hd hd h (Int.le_refl d)
  obtain ⟨x', y', a', b', c'⟩ := C114_sub_order_partial w hw t t' d d ht ht' hd hd h (Int.le_refl d)
  exact ⟨⟨x, y, a, b, c.2 (by omega)⟩, x', y', a', b', c'.2 (by omega)⟩

/-- C114, partial: exactly when subtracting what was added gives the time back: the duration is not negative and the sum is a time - or
both results are wrong in a way that cancels out. Missing: other negative durations. -/
theorem C114_back_partial (w : Nat) (hw : 2 ≤ w) (t d : Int) (ht : IsUInt w t) (hd : IsInt w d) :
    ((TimePoint.add w ⟨t⟩ ⟨d⟩ >>= fun x => x.sub w ⟨d⟩) = .ok ⟨t⟩ ↔ if 0 ≤ d then t + d ≤ 2 ^ w - 1 else 2 ^ w + d ≤ t) ∧
    ((TimePoint.sub w ⟨t⟩ ⟨d⟩ >>= fun x => x.add w ⟨d⟩) = .ok ⟨t⟩ ↔ if 0 ≤ d then 0 ≤ t - d else t + (2 ^ w + d) ≤ 2 ^ w - 1) := by
  have hp := pow_pos' (w - 1)
  have hpw := two_pow_succ (w := w) (by omega)
  constructor
  · rw [timeAdd_eq w hw t d ht hd]
    show (TimePoint.sub w ⟨_⟩ ⟨d⟩ = _) ↔ _
    rw [timeSub_eq w hw _ d (by simp only [IsUInt, IsInt] at *; omega) hd]
    simp only [IsUInt, IsInt, Outcome.ok.injEq, TimePoint.mk.injEq] at *
    by_cases h : 0 ≤ d <;> simp only [h, if_true, if_false] <;> omega
  · rw [timeSub_eq w hw t d ht hd]
    show (TimePoint.add w ⟨_⟩ ⟨d⟩ = _) ↔ _
    rw [timeAdd_eq w hw _ d (by simp only [IsUInt, IsInt] at *; omega) hd]
    simp only [IsUInt, IsInt, Outcome.ok.injEq, TimePoint.mk.injEq] at *
    by_cases h : 0 ≤ d <;> simp only [h, if_true, if_false] <;> omega

example : (TimePoint.add 64 ⟨1000⟩ ⟨250⟩ >>= fun x => x.sub 64 ⟨250⟩) = .ok ⟨1000⟩ :=
  (C114_back_partial 64 (by decide) 1000 250 (by decide) (by decide)).1.2 (by decide)

/-- C114, partial: durations that are not negative can be added one by one or at once exactly if the sum of the durations is a duration,
or time ends anyway. Missing: negative durations. -/
theorem C114_successive_partial (t d d' : Int) (ht : IsUInt 64 t) (hd : IsInt 64 d) (hd' : IsInt 64 d') (h : 0 ≤ d) (h' : 0 ≤ d') :
    ∃ s, Duration.add strictAbs defaultWidth ⟨d⟩ ⟨d'⟩ = .ok s ∧
      ((TimePoint.add 64 ⟨t⟩ ⟨d⟩ >>= fun x => x.add 64 ⟨d'⟩) = TimePoint.add 64 ⟨t⟩ s ↔ IsInt 64 (d + d') ∨ 2 ^ 63 ≤ t) := by
  refine ⟨_, (C07_duration_arithmetic_partial d d' hd hd').1.2 (.inr h'), ?_⟩
  have hs : IsInt 64 (signedClamp 64 (d + d')) := by simp only [IsInt, signedClamp, clamp] at *; omega
  rw [timeAdd_eq 64 (by decide) t d ht hd]
  show (TimePoint.add 64 ⟨_⟩ ⟨d'⟩ = _) ↔ _
  rw [timeAdd_eq 64 (by decide) _ d' (by simp only [IsUInt, IsInt] at *; omega) hd', timeAdd_eq 64 (by decide) t _ ht hs]
  simp only [IsUInt, IsInt, Outcome.ok.injEq, TimePoint.mk.injEq, signedClamp, clamp] at *
  omega

example : ∃ s, Duration.add strictAbs defaultWidth ⟨250⟩ ⟨750⟩ = .ok s ∧
    (TimePoint.add 64 ⟨5⟩ ⟨250⟩ >>= fun x => x.add 64 ⟨750⟩) = TimePoint.add 64 ⟨5⟩ s := by
  obtain ⟨s, a, b⟩ := C114_successive_partial 5 250 750 (by decide) (by decide) (by decide) (by decide) (by decide)
  exact ⟨s, a, b.2 (.inl (by decide))⟩

/-- C114, partial: a deadline `t + d` has passed exactly when `d` microseconds have passed since `t`, or the clock shows its maximum,
where it stops; with a negative `d` at any time from `t - (2^w + d)` on, which is always unless `t` is close to the maximum. Missing: for
negative durations, that it has passed only from `t + d` on. -/
theorem C114_deadline_partial (w : Nat) (hw : 2 ≤ w) (t now d : Int) (ht : IsUInt w t) (hn : IsUInt w now) (hd : IsInt w d) :
    ∃ x, TimePoint.add w ⟨t⟩ ⟨d⟩ = .ok x ∧
      (TimePoint.ge ⟨now⟩ x = true ↔ if 0 ≤ d then d ≤ now - t ∨ now = 2 ^ w - 1 else t - (2 ^ w + d) ≤ now) := by
  refine ⟨_, timeAdd_eq w hw t d ht hd, ?_⟩
  have hp := pow_pos' (w - 1)
  have hpw := two_pow_succ (w := w) (by omega)
  simp only [IsUInt, IsInt, TimePoint.ge, ge_iff_le, decide_eq_true_eq] at *
  by_cases h : 0 ≤ d <;> simp only [h, if_true, if_false] <;> omega

/-- One second after the start, but not before. -/
example : ∃ x, TimePoint.add 64 ⟨500⟩ ⟨1000000⟩ = .ok x ∧ TimePoint.ge ⟨1000500⟩ x = true ∧ TimePoint.ge ⟨1000499⟩ x = false := by
  obtain ⟨x, a, b⟩ := C114_deadline_partial 64 (by decide) 500 1000500 1000000 (by decide) (by decide) (by decide)
  obtain ⟨y, a', b'⟩ := C114_deadline_partial 64 (by decide) 500 1000499 1000000 (by decide) (by decide) (by decide)
  rw [a] at a'
  cases a'
  refine ⟨x, a, b.2 (by decide), ?_⟩
  cases h : TimePoint.ge ⟨1000499⟩ x with
  | false => rfl
  | true => exact absurd (b'.1 h) (by decide)

/-- C114 is false of the code: each part fails for negative durations. -/
theorem C114_full_statement_fails : ¬ C114_Statement 64 ∧
    (TimePoint.add 64 ⟨2 ^ 64 - 1⟩ ⟨-3⟩ = .ok ⟨2⟩ ∧ TimePoint.add 64 ⟨2 ^ 64 - 1⟩ ⟨-2⟩ = .ok ⟨1⟩) ∧
    (TimePoint.sub 64 ⟨0⟩ ⟨-3⟩ = .ok ⟨2 ^ 64 - 3⟩ ∧ TimePoint.sub 64 ⟨0⟩ ⟨-2⟩ = .ok ⟨2 ^ 64 - 2⟩) ∧
    (TimePoint.add 64 ⟨5⟩ ⟨-3⟩ >>= fun x => x.sub 64 ⟨-3⟩) = .ok ⟨2 ^ 64 - 3⟩ ∧
    (TimePoint.add 64 ⟨5⟩ ⟨7⟩ >>= fun x => x.add 64 ⟨-3⟩) = .ok ⟨0⟩ ∧
    (TimePoint.add 64 ⟨100⟩ ⟨-3⟩ = .ok ⟨0⟩ ∧ TimePoint.ge ⟨1⟩ ⟨0⟩ = true) := by
  refine ⟨fun h => ?_, by decide, by decide, by decide, by decide, by decide⟩
  have := (h 5 5 (-3) (-3) (by decide) (by decide) (by decide) (by decide)).2.2.1 (by decide)
  revert this
  decide

end Uavcan.Time
