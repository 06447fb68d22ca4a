import Verif.Lemmas.Time
import Verif.Props.SatMath

/-!
# C06–C12: durations and times
-/

namespace Uavcan.Time
open Uavcan.Spec SatMath

/-! ## C06 round trip and order -/

/-- C06 for durations: construction and observation are inverse, the six comparisons are the integer
order, and the maximum is an upper bound of all representable values. -/
theorem C06_duration_order (w : Nat) (a b : Int) :
    (Duration.fromMicrosecond a).toMicrosecond = a ∧
    (∀ d : Duration, Duration.fromMicrosecond d.toMicrosecond = d) ∧
    Duration.default.toMicrosecond = 0 ∧
    ((Duration.fromMicrosecond a).eq (.fromMicrosecond b) = true ↔ a = b) ∧
    ((Duration.fromMicrosecond a).ne (.fromMicrosecond b) = true ↔ a ≠ b) ∧
    ((Duration.fromMicrosecond a).lt (.fromMicrosecond b) = true ↔ a < b) ∧
    ((Duration.fromMicrosecond a).gt (.fromMicrosecond b) = true ↔ b < a) ∧
    ((Duration.fromMicrosecond a).le (.fromMicrosecond b) = true ↔ a ≤ b) ∧
    ((Duration.fromMicrosecond a).ge (.fromMicrosecond b) = true ↔ b ≤ a) ∧
    (Duration.getMaximum w).toMicrosecond = 2 ^ (w - 1) - 1 ∧
    (IsInt w a → (Duration.fromMicrosecond a).le (.getMaximum w) = true) := by
  refine ⟨rfl, fun d => rfl, rfl, ?_, ?_, ?_, ?_, ?_, ?_, rfl, ?_⟩ <;>
    simp [Duration.fromMicrosecond, Duration.eq, Duration.ne, Duration.lt, Duration.gt, Duration.le,
      Duration.ge, Duration.getMaximum, intMax, IsInt]
  · exact decide_eq_true_iff
  · exact decide_eq_true_iff
  · exact fun _ h => decide_eq_true h

/-- C06 for times. -/
theorem C06_time_order (w : Nat) (a b : Int) :
    (TimePoint.fromMicrosecond a).toMicrosecond = a ∧
    (∀ t : TimePoint, TimePoint.fromMicrosecond t.toMicrosecond = t) ∧
    TimePoint.default.toMicrosecond = 0 ∧
    ((TimePoint.fromMicrosecond a).eq (.fromMicrosecond b) = true ↔ a = b) ∧
    ((TimePoint.fromMicrosecond a).ne (.fromMicrosecond b) = true ↔ a ≠ b) ∧
    ((TimePoint.fromMicrosecond a).lt (.fromMicrosecond b) = true ↔ a < b) ∧
    ((TimePoint.fromMicrosecond a).gt (.fromMicrosecond b) = true ↔ b < a) ∧
    ((TimePoint.fromMicrosecond a).le (.fromMicrosecond b) = true ↔ a ≤ b) ∧
    ((TimePoint.fromMicrosecond a).ge (.fromMicrosecond b) = true ↔ b ≤ a) ∧
    (TimePoint.getMaximum w).toMicrosecond = 2 ^ w - 1 ∧
    (IsUInt w a → (TimePoint.fromMicrosecond a).le (.getMaximum w) = true) := by
  refine ⟨rfl, fun d => rfl, rfl, ?_, ?_, ?_, ?_, ?_, ?_, rfl, ?_⟩ <;>
    simp [TimePoint.fromMicrosecond, TimePoint.eq, TimePoint.ne, TimePoint.lt, TimePoint.gt, TimePoint.le,
      TimePoint.ge, TimePoint.getMaximum, uintMax, IsUInt]
  · exact decide_eq_true_iff
  · exact decide_eq_true_iff
  · exact fun _ h => decide_eq_true h

/-- C06: `<` on durations is a strict total order and `<=`, `>`, `>=`, `!=` are the relations derived
from it. -/
theorem C06_duration_total (x y z : Duration) :
    x.lt x = false ∧ (x.lt y = true → y.lt z = true → x.lt z = true) ∧
    (x.lt y = true ∨ x.eq y = true ∨ y.lt x = true) ∧
    (x.eq y = true ↔ x = y) ∧
    x.le y = !y.lt x ∧ x.gt y = y.lt x ∧ x.ge y = !x.lt y ∧ x.ne y = !x.eq y := by
  obtain ⟨a⟩ := x; obtain ⟨b⟩ := y; obtain ⟨c⟩ := z
  simp only [Duration.eq, Duration.ne, Duration.lt, Duration.gt, Duration.le, Duration.ge,
    decide_eq_true_eq, beq_iff_eq, Duration.mk.injEq, decide_eq_false_iff_not, ge_iff_le, gt_iff_lt]
  refine ⟨by omega, by omega, by omega, trivial, ?_, trivial, ?_, trivial⟩ <;>
    (rw [Bool.eq_iff_iff]; simp)

/-- C06: the same for times. -/
theorem C06_time_total (x y z : TimePoint) :
    x.lt x = false ∧ (x.lt y = true → y.lt z = true → x.lt z = true) ∧
    (x.lt y = true ∨ x.eq y = true ∨ y.lt x = true) ∧
    (x.eq y = true ↔ x = y) ∧
    x.le y = !y.lt x ∧ x.gt y = y.lt x ∧ x.ge y = !x.lt y ∧ x.ne y = !x.eq y := by
  obtain ⟨a⟩ := x; obtain ⟨b⟩ := y; obtain ⟨c⟩ := z
  simp only [TimePoint.eq, TimePoint.ne, TimePoint.lt, TimePoint.gt, TimePoint.le, TimePoint.ge,
    decide_eq_true_eq, beq_iff_eq, TimePoint.mk.injEq, decide_eq_false_iff_not, ge_iff_le, gt_iff_lt]
  refine ⟨by omega, by omega, by omega, trivial, ?_, trivial, ?_, trivial⟩ <;>
    (rw [Bool.eq_iff_iff]; simp)

example : (Duration.fromMicrosecond (-3)).lt (.fromMicrosecond 2) = true ∧
    (TimePoint.fromMicrosecond 3).ge (.fromMicrosecond 3) = true ∧
    (Duration.getMaximum 64).usec = 9223372036854775807 := by decide

/-! ## C07 duration arithmetic -/

/-- The full statement of C07 at the library's width. -/
def C07_Statement (abs : Nat → Int → Outcome Int) : Prop :=
  ∀ a b, IsInt 64 a → IsInt 64 b →
    Duration.add abs defaultWidth ⟨a⟩ ⟨b⟩ = .ok ⟨signedClamp 64 (a + b)⟩ ∧
    Duration.sub abs defaultWidth ⟨a⟩ ⟨b⟩ = .ok ⟨signedClamp 64 (a - b)⟩

/-- C07 (partial). On 64-bit durations `a + b` is defined and saturates exactly **iff** `a ≠ 0` or
`b ≥ 0`; `a - b` **iff** `a ≠ 0` or `b < 0`. Missing: a zero left operand in the other direction. -/
theorem C07_duration_arithmetic_partial (a b : Int) (ha : IsInt 64 a) (hb : IsInt 64 b) :
    (Duration.add strictAbs defaultWidth ⟨a⟩ ⟨b⟩ = .ok ⟨signedClamp 64 (a + b)⟩ ↔ (a ≠ 0 ∨ 0 ≤ b)) ∧
    (Duration.sub strictAbs defaultWidth ⟨a⟩ ⟨b⟩ = .ok ⟨signedClamp 64 (a - b)⟩ ↔ (a ≠ 0 ∨ b < 0)) := by
  have h1 := C01_signed_add_partial 64 (by decide) a b ha hb
  have h2 := C02_signed_sub_partial 64 (by decide) a b ha hb
  simp only [show ¬ (64 < 32) by decide, false_or] at h1 h2
  rw [← h1, ← h2]
  constructor
  · simp only [Duration.add, defaultWidth]
    cases addS strictAbs 64 a b <;> simp [Duration.fromMicrosecond]
  · simp only [Duration.sub, defaultWidth]
    cases subS strictAbs 64 a b <;> simp [Duration.fromMicrosecond]

/-- C07 (partial), algebraic laws on the domain where the operations are right: commutativity, and the
neutral and inverse elements. -/
theorem C07_duration_laws_partial (a b : Int) (ha : IsInt 64 a) (hb : IsInt 64 b) :
    ((a ≠ 0 ∨ 0 ≤ b) → (b ≠ 0 ∨ 0 ≤ a) →
      Duration.add strictAbs defaultWidth ⟨a⟩ ⟨b⟩ = Duration.add strictAbs defaultWidth ⟨b⟩ ⟨a⟩) ∧
    Duration.add strictAbs defaultWidth ⟨a⟩ ⟨0⟩ = .ok ⟨a⟩ ∧
    (a ≠ 0 → Duration.sub strictAbs defaultWidth ⟨a⟩ ⟨0⟩ = .ok ⟨a⟩) ∧
    (a ≠ 0 → Duration.sub strictAbs defaultWidth ⟨a⟩ ⟨a⟩ = .ok ⟨0⟩) := by
  have hz : IsInt 64 0 := by decide
  have hc : ∀ x, IsInt 64 x → signedClamp 64 x = x := fun x hx => clamp_of_mem hx.1 hx.2
  refine ⟨fun h1 h2 => ?_, ?_, fun h => ?_, fun h => ?_⟩
  · rw [(C07_duration_arithmetic_partial a b ha hb).1.2 h1,
      (C07_duration_arithmetic_partial b a hb ha).1.2 h2, Int.add_comm]
  · rw [(C07_duration_arithmetic_partial a 0 ha hz).1.2 (by omega), Int.add_zero, hc a ha]
  · rw [(C07_duration_arithmetic_partial a 0 ha hz).2.2 (by omega), Int.sub_zero, hc a ha]
  · rw [(C07_duration_arithmetic_partial a a ha ha).2.2 (by omega), Int.sub_self, hc 0 hz]

/-- The full statement of C07 fails under both readings of `std::abs`: `0 - 0`. -/
theorem C07_full_statement_fails : ¬ C07_Statement strictAbs ∧ ¬ C07_Statement wrapAbs := by
  constructor <;>
  · intro h
    have := (h 0 0 (by decide) (by decide)).2
    revert this; decide

example : Duration.sub strictAbs defaultWidth ⟨0⟩ ⟨0⟩ = .ub .absOfMin ∧
    Duration.sub wrapAbs defaultWidth ⟨0⟩ ⟨0⟩ = .ok ⟨-(2 ^ 63)⟩ ∧
    Duration.add strictAbs defaultWidth ⟨2 ^ 63 - 1⟩ ⟨1⟩ = .ok ⟨2 ^ 63 - 1⟩ ∧
    Duration.sub strictAbs defaultWidth ⟨-5⟩ ⟨2 ^ 63 - 1⟩ = .ok ⟨-(2 ^ 63)⟩ ∧
    IsInt 64 (-5) ∧ ((-5 : Int) ≠ 0 ∨ (2 ^ 63 - 1 : Int) < 0) := by decide

/-! ## C08 negation -/

/-- C08. Unary minus is defined for every duration of every width, is the exact negation except at the
minimum, where it is the maximum, and is an involution except at the minimum. -/
theorem C08_negation (w : Nat) (hw : 2 ≤ w) (a : Int) (ha : IsInt w a) :
    Duration.neg w ⟨a⟩ = .ok ⟨if a = -(2 ^ (w - 1)) then 2 ^ (w - 1) - 1 else -a⟩ ∧
    (a ≠ -(2 ^ (w - 1)) → (Duration.neg w ⟨a⟩ >>= Duration.neg w) = .ok ⟨a⟩) := by
  have hp := pow_pos' (w - 1)
  have key : ∀ x, IsInt w x → x ≠ -(2 ^ (w - 1)) → Duration.neg w ⟨x⟩ = .ok ⟨-x⟩ := by
    intro x hx hne
    have hs : InS w (-x) := by simp only [InS, IsInt, intMin, intMax] at *; omega
    have hne' : ¬ x = intMin w := hne
    simp only [Duration.neg, hne', if_false, signedResult_ok hw hs, Outcome.ok_bind,
      castS_of_inS (by omega) hs, Outcome.pure_eq, Duration.fromMicrosecond]
  constructor
  · by_cases h : a = -(2 ^ (w - 1))
    · have h' : a = intMin w := h
      simp only [Duration.neg, h', if_true]
      simp [Duration.fromMicrosecond, intMax, intMin]
    · rw [if_neg h]; exact key a ha h
  · intro h
    rw [key a ha h, Outcome.ok_bind]
    by_cases h2 : -a = -(2 ^ (w - 1))
    · simp only [IsInt] at ha; omega
    · rw [key (-a) (by simp only [IsInt] at *; omega) h2, Int.neg_neg]

example : Duration.neg 64 ⟨-(2 ^ 63)⟩ = .ok ⟨2 ^ 63 - 1⟩ ∧ Duration.neg 64 ⟨5⟩ = .ok ⟨-5⟩ ∧
    Duration.neg 8 ⟨-127⟩ = .ok ⟨127⟩ ∧ IsInt 8 (-127) := by decide

/-! ## C09 absolute value -/

/-- The full statement of C09. -/
def C09_Statement (abs : Nat → Int → Outcome Int) : Prop :=
  ∀ w, 2 ≤ w → ∀ a, IsInt w a →
    Duration.getAbs abs w ⟨a⟩ = .ok ⟨signedClamp w (if a < 0 then -a else a)⟩

/-- C09 (partial). `getAbs` is defined and right **iff** the duration is not the minimum, under both
readings of `std::abs` and for every width. -/
theorem C09_getAbs_partial (w : Nat) (hw : 2 ≤ w) (a : Int) (ha : IsInt w a) (abs : Nat → Int → Outcome Int)
    (habs : abs = strictAbs ∨ abs = wrapAbs) :
    Duration.getAbs abs w ⟨a⟩ = .ok ⟨signedClamp w (if a < 0 then -a else a)⟩ ↔ a ≠ -(2 ^ (w - 1)) := by
  have hp := pow_pos' (w - 1)
  obtain ⟨h1, h2, h3, h4⟩ := promW_facts hw
  by_cases h : a = -(2 ^ (w - 1))
  · simp only [h, ne_eq, not_true_eq_false, iff_false]
    by_cases hw32 : w < 32
    · have hne : ¬ (-(2 ^ (w - 1)) : Int) = intMin (promW w) := by
        have := h3 hw32; simp only [intMin]; omega
      have hbm : castS w (2 ^ (w - 1)) = -(2 ^ (w - 1)) := by
        have hd := two_pow_succ (w := w) (by omega)
        have e : castS w (2 ^ (w - 1)) = castS w (-(2 ^ (w - 1))) := by
          unfold castS
          have hc : ((2 ^ w : Nat) : Int) = 2 ^ w := by simp
          rw [show (2 : Int) ^ (w - 1) = -(2 ^ (w - 1)) + (2 ^ w : Nat) by rw [hc]; omega, Int.add_bmod_right]
          congr 1
          rw [hc]; omega
        rw [e]
        exact castS_of_inS (by omega) (by simp only [InS, intMin, intMax]; omega)
      have hlt : (-(2 ^ (w - 1)) : Int) < 0 := by omega
      rcases habs with rfl | rfl <;>
      · simp only [Duration.getAbs, strictAbs, wrapAbs, hne, if_false, hlt, if_true, Outcome.ok_bind, Int.neg_neg,
          hbm, Outcome.pure_eq, Duration.fromMicrosecond, Outcome.ok.injEq, Duration.mk.injEq,
          signedClamp, clamp]
        omega
    · have hpw := h4 (by omega)
      have hm : (-(2 ^ (w - 1)) : Int) = intMin (promW w) := by rw [hpw]; rfl
      rcases habs with rfl | rfl
      · simp only [Duration.getAbs, strictAbs, hm, if_true, Outcome.ub_bind]
        intro hcon; cases hcon
      · have hi : InS w (intMin w) := by simp only [InS, intMin, intMax]; omega
        have hm' : (-(2 ^ (w - 1)) : Int) = intMin w := rfl
        simp only [Duration.getAbs, wrapAbs, hpw, hm', if_true, Outcome.ok_bind,
          castS_of_inS (by omega) hi, Outcome.pure_eq, Duration.fromMicrosecond, Outcome.ok.injEq,
          Duration.mk.injEq, signedClamp, clamp]
        simp only [intMin]
        omega
  · simp only [ne_eq, h, not_false_eq_true, iff_true]
    have hne : ¬ a = intMin (promW w) := by simp only [intMin, IsInt] at *; omega
    have hi : InS w (if a < 0 then -a else a) := by
      simp only [InS, IsInt, intMin, intMax] at *; split <;> omega
    have hcl : signedClamp w (if a < 0 then -a else a) = (if a < 0 then -a else a) := clamp_of_mem hi.1 hi.2
    rcases habs with rfl | rfl <;>
      simp only [Duration.getAbs, strictAbs, wrapAbs, hne, if_false, Outcome.ok_bind,
        castS_of_inS (by omega) hi, Outcome.pure_eq, Duration.fromMicrosecond, hcl]

/-- The full statement of C09 fails under both readings of `std::abs`. -/
theorem C09_full_statement_fails : ¬ C09_Statement strictAbs ∧ ¬ C09_Statement wrapAbs := by
  constructor <;>
  · intro h
    have := h 64 (by decide) (-(2 ^ 63)) (by decide)
    revert this; decide

example : Duration.getAbs strictAbs 64 ⟨-7⟩ = .ok ⟨7⟩ ∧ Duration.getAbs strictAbs 64 ⟨7⟩ = .ok ⟨7⟩ ∧
    Duration.getAbs strictAbs 64 ⟨-(2 ^ 63)⟩ = .ub .absOfMin ∧
    Duration.getAbs wrapAbs 64 ⟨-(2 ^ 63)⟩ = .ok ⟨-(2 ^ 63)⟩ ∧
    Duration.getAbs strictAbs 8 ⟨-128⟩ = .ok ⟨-128⟩ ∧ IsInt 64 (-7) := by decide

/-! ## C10 accumulation -/

/-- C10, addition. Adding any list of non-negative durations one by one gives the saturated total. -/
theorem C10_accumulate_add (w : Nat) (hw : 1 ≤ w) (t : Int) (ht : IsUInt w t) (ds : List Int)
    (hds : ∀ d ∈ ds, IsInt w d ∧ 0 ≤ d) :
    TimePoint.addAll w ⟨t⟩ (ds.map Duration.fromMicrosecond) = .ok ⟨min (2 ^ w - 1) (t + ds.sum)⟩ := by
  induction ds generalizing t with
  | nil => simp only [IsUInt] at ht; simp [TimePoint.addAll]; omega
  | cons d ds ih =>
    have hd := hds d (by simp)
    have hs : 0 ≤ ds.sum := sum_nonneg (fun x hx => (hds x (by simp [hx])).2)
    simp only [List.map_cons, TimePoint.addAll, Duration.fromMicrosecond,
      TimePoint.add_nonneg hw ht hd.1 hd.2, Outcome.ok_bind]
    have := ih (min (2 ^ w - 1) (t + d)) (by simp only [IsUInt] at *; omega) (fun x hx => hds x (by simp [hx]))
    rw [this]
    simp only [List.sum_cons, Outcome.ok.injEq, TimePoint.mk.injEq]
    omega

/-- C10, subtraction. Subtracting any list of non-negative durations gives the total cut off at zero. -/
theorem C10_accumulate_sub (w : Nat) (hw : 1 ≤ w) (t : Int) (ht : IsUInt w t) (ds : List Int)
    (hds : ∀ d ∈ ds, IsInt w d ∧ 0 ≤ d) :
    TimePoint.subAll w ⟨t⟩ (ds.map Duration.fromMicrosecond) = .ok ⟨max 0 (t - ds.sum)⟩ := by
  induction ds generalizing t with
  | nil => simp only [IsUInt] at ht; simp [TimePoint.subAll]; omega
  | cons d ds ih =>
    have hd := hds d (by simp)
    have hs : 0 ≤ ds.sum := sum_nonneg (fun x hx => (hds x (by simp [hx])).2)
    simp only [List.map_cons, TimePoint.subAll, Duration.fromMicrosecond,
      TimePoint.sub_nonneg hw ht hd.1 hd.2, Outcome.ok_bind]
    have := ih (max 0 (t - d)) (by simp only [IsUInt] at *; omega) (fun x hx => hds x (by simp [hx]))
    rw [this]
    simp only [List.sum_cons, Outcome.ok.injEq, TimePoint.mk.injEq]
    omega

/-- C10: on the way the clock never goes backwards, and the maximum is absorbing. -/
theorem C10_accumulate_monotone (w : Nat) (hw : 1 ≤ w) (t : Int) (ht : IsUInt w t) (ds es : List Int)
    (hds : ∀ d ∈ ds ++ es, IsInt w d ∧ 0 ≤ d) :
    ∃ u v : TimePoint, TimePoint.addAll w ⟨t⟩ (ds.map Duration.fromMicrosecond) = .ok u ∧
      TimePoint.addAll w ⟨t⟩ ((ds ++ es).map Duration.fromMicrosecond) = .ok v ∧
      u.le v = true ∧ (u = TimePoint.getMaximum w → v = u) := by
  have hs : 0 ≤ es.sum := sum_nonneg (fun x hx => (hds x (by simp [hx])).2)
  refine ⟨_, _, C10_accumulate_add w hw t ht ds (fun d hd => hds d (by simp [hd])),
    C10_accumulate_add w hw t ht _ hds, ?_, ?_⟩
  · simp only [TimePoint.le, List.sum_append, decide_eq_true_eq]; omega
  · simp only [TimePoint.getMaximum, TimePoint.fromMicrosecond, uintMax, List.sum_append, TimePoint.mk.injEq]
    omega

example : TimePoint.addAll 64 ⟨2 ^ 64 - 10⟩ ([3, 4, 5, 6].map Duration.fromMicrosecond) = .ok ⟨2 ^ 64 - 1⟩ ∧
    TimePoint.addAll 64 ⟨1⟩ ([3, 4].map Duration.fromMicrosecond) = .ok ⟨8⟩ ∧
    TimePoint.subAll 64 ⟨10⟩ ([3, 4, 5].map Duration.fromMicrosecond) = .ok ⟨0⟩ := by decide
example : IsUInt 64 (2 ^ 64 - 10) ∧ ∀ d ∈ [3, 4, 5, 6], IsInt 64 d ∧ (0 : Int) ≤ d := by decide

/-! ## C11 negative durations -/

/-- The full statement of C11. -/
def C11_Statement : Prop :=
  ∀ t d, IsUInt 64 t → IsInt 64 d → d < 0 →
    TimePoint.add defaultWidth ⟨t⟩ ⟨d⟩ = .ok ⟨max 0 (t + d)⟩ ∧
    TimePoint.sub defaultWidth ⟨t⟩ ⟨d⟩ = .ok ⟨min (2 ^ 64 - 1) (t - d)⟩

/-- C11 (partial). Adding a negative duration is right **iff** the duration is the minimum or the exact
result is at most zero; subtracting one **iff** it is the minimum or the exact result reaches the
maximum. Missing: every other case, i.e. whenever the true result lies strictly inside the range. -/
theorem C11_negative_duration_partial (t d : Int) (ht : IsUInt 64 t) (hd : IsInt 64 d) (h : d < 0) :
    (TimePoint.add defaultWidth ⟨t⟩ ⟨d⟩ = .ok ⟨max 0 (t + d)⟩ ↔ (d = -(2 ^ 63) ∨ t + d ≤ 0)) ∧
    (TimePoint.sub defaultWidth ⟨t⟩ ⟨d⟩ = .ok ⟨min (2 ^ 64 - 1) (t - d)⟩ ↔
      (d = -(2 ^ 63) ∨ 2 ^ 64 - 1 ≤ t - d)) := by
  have h1 := C04_mixed_add_partial 64 (by decide) t d ht hd
  have h2 := C05_mixed_sub_partial 64 (by decide) t d ht hd
  simp only [show ¬ (0 ≤ d) by omega, false_or] at h1 h2
  rw [← h1, ← h2]
  simp only [IsUInt] at ht
  have e1 : unsignedClamp 64 (t + d) = max 0 (t + d) := by simp only [unsignedClamp, clamp]; omega
  have e2 : unsignedClamp 64 (t - d) = min (2 ^ 64 - 1) (t - d) := by
    simp only [unsignedClamp, clamp]; omega
  rw [e1, e2]
  constructor
  · simp only [TimePoint.add, defaultWidth, Duration.toMicrosecond]
    cases addM 64 t d <;> simp [TimePoint.fromMicrosecond]
  · simp only [TimePoint.sub, defaultWidth, Duration.toMicrosecond]
    cases subM 64 t d <;> simp [TimePoint.fromMicrosecond]

/-- The full statement of C11 fails: `time(5 µs) + duration(-3 µs)` is 0 µs. -/
theorem C11_full_statement_fails : ¬ C11_Statement := by
  intro h
  have := (h 5 (-3) (by decide) (by decide) (by decide)).1
  revert this; decide

example : TimePoint.add defaultWidth ⟨5⟩ ⟨-3⟩ = .ok ⟨0⟩ ∧
    TimePoint.sub defaultWidth ⟨5⟩ ⟨-3⟩ = .ok ⟨2 ^ 64 - 1⟩ ∧
    TimePoint.add defaultWidth ⟨2 ^ 63 + 4⟩ ⟨-(2 ^ 63)⟩ = .ok ⟨4⟩ ∧
    TimePoint.sub defaultWidth ⟨2 ^ 64 - 2⟩ ⟨-7⟩ = .ok ⟨2 ^ 64 - 1⟩ ∧
    IsUInt 64 (2 ^ 64 - 2) ∧ IsInt 64 (-7) ∧ (2 ^ 64 - 1 : Int) ≤ (2 ^ 64 - 2) - (-7) := by decide

/-! ## C12 assignment -/

/-- The full statement of C12 for moves: whatever the aliasing, the destination receives the source's
old value and the source is reset. -/
def C12_MoveStatement : Prop :=
  ∀ (st : Store) (d s : Nat), ∃ st', (Stmt.moveAssign d s).exec strictAbs defaultWidth st = .ok st' ∧
    st' d = st s ∧ st' s = 0

/-- C12, copying: source unchanged, destination equal, nothing else touched - for every aliasing. -/
theorem C12_copy (abs : Nat → Int → Outcome Int) (w : Nat) (st : Store) (d s : Nat) :
    ∃ st', (Stmt.copy d s).exec abs w st = .ok st' ∧ st' d = st s ∧ st' s = st s ∧
      ∀ i, i ≠ d → st' i = st i := by
  refine ⟨_, rfl, by simp [Store.set], ?_, ?_⟩
  · simp only [Store.set]; split <;> simp_all
  · intro i hi; simp [Store.set, hi]

/-- C12 (partial), moving between distinct objects. Missing: self-move. -/
theorem C12_move_partial (abs : Nat → Int → Outcome Int) (w : Nat) (st : Store) (d s : Nat) (h : d ≠ s) :
    (∃ st', (Stmt.moveAssign d s).exec abs w st = .ok st' ∧ st' d = st s ∧ st' s = 0 ∧
      ∀ i, i ≠ d → i ≠ s → st' i = st i) ∧
    (∃ st', (Stmt.moveConstruct d s).exec abs w st = .ok st' ∧ st' d = st s ∧ st' s = 0 ∧
      ∀ i, i ≠ d → i ≠ s → st' i = st i) := by
  constructor <;>
  · refine ⟨_, rfl, by simp [Store.set, h], by simp [Store.set], ?_⟩
    intro i hi hs; simp [Store.set, hi, hs]

/-- A self-move resets the object to zero. -/
theorem C12_self_move_resets (abs : Nat → Int → Outcome Int) (w : Nat) (st : Store) (d : Nat) :
    ∃ st', (Stmt.moveAssign d d).exec abs w st = .ok st' ∧ st' d = 0 :=
  ⟨_, rfl, by simp [Store.set]⟩

/-- The full statement for moves fails on self-move. -/
theorem C12_full_statement_fails : ¬ C12_MoveStatement := by
  intro h
  obtain ⟨st', h1, h2, h3⟩ := h (fun _ => 7) 0 0
  rw [h2] at h3
  exact absurd h3 (by decide)

/-- C12, compound assignment: `d op= s` stores `d op s` in `d` - also when `d` and `s` are the same
object - and leaves every other object, in particular a distinct `s`, unchanged. -/
theorem C12_compound (abs : Nat → Int → Outcome Int) (w : Nat) (st st' : Store) (d s : Nat) :
    ((Stmt.addAssign d s).exec abs w st = .ok st' ↔
      ∃ v, Duration.add abs w ⟨st d⟩ ⟨st s⟩ = .ok v ∧ st' = fun i => if i = d then v.usec else st i) ∧
    ((Stmt.subAssign d s).exec abs w st = .ok st' ↔
      ∃ v, Duration.sub abs w ⟨st d⟩ ⟨st s⟩ = .ok v ∧ st' = fun i => if i = d then v.usec else st i) := by
  simp only [Stmt.exec, Outcome.bind_eq_ok, Outcome.pure_eq, Outcome.ok.injEq]
  constructor <;>
  · constructor
    · rintro ⟨v, h1, h2⟩; exact ⟨v, h1, h2.symm⟩
    · rintro ⟨v, h1, h2⟩; exact ⟨v, h1, h2.symm⟩

/-- C12 over histories: whatever statements a program executes, with whatever aliasing, every object
keeps a representable value (nothing ever wraps to an out-of-range value). -/
theorem C12_history_in_range (abs : Nat → Int → Outcome Int) (w : Nat) (hw : 2 ≤ w) (cs : List Stmt)
    (st st' : Store) (h0 : ∀ i, IsInt w (st i)) (h : exec abs w st cs = .ok st') :
    ∀ i, IsInt w (st' i) := by
  have hz : IsInt w 0 := by have := pow_pos' (w - 1); simp only [IsInt]; omega
  induction cs generalizing st with
  | nil => cases h; exact h0
  | cons c cs ih =>
    simp only [exec, Outcome.bind_eq_ok] at h
    obtain ⟨st1, h1, h2⟩ := h
    refine ih st1 ?_ h2
    intro i
    cases c with
    | copy d s => cases h1; simp only [Store.set]; split <;> exact h0 _
    | moveAssign d s =>
      cases h1; simp only [Store.set]
      split
      · exact hz
      · split <;> exact h0 _
    | moveConstruct d s =>
      cases h1; simp only [Store.set]
      split
      · exact hz
      · split <;> exact h0 _
    | addAssign d s =>
      obtain ⟨v, hv, rfl⟩ := ((C12_compound abs w st st1 d s).1).1 h1
      simp only [Duration.add] at hv
      cases ha : addS abs w (st d) (st s) with
      | ub r => rw [ha] at hv; cases hv
      | ok x =>
        rw [ha] at hv; cases hv
        simp only [Duration.fromMicrosecond]
        split
        · exact addS_inS hw ha
        · exact h0 _
    | subAssign d s =>
      obtain ⟨v, hv, rfl⟩ := ((C12_compound abs w st st1 d s).2).1 h1
      simp only [Duration.sub] at hv
      cases ha : subS abs w (st d) (st s) with
      | ub r => rw [ha] at hv; cases hv
      | ok x =>
        rw [ha] at hv; cases hv
        simp only [Duration.fromMicrosecond]
        split
        · exact subS_inS hw ha
        · exact h0 _

/-- The objects a statement may change: its destination, and what is moved from. -/
def Stmt.Touches (i : Nat) : Stmt → Prop
  | .copy d _ | .addAssign d _ | .subAssign d _ => i = d
  | .moveAssign d s | .moveConstruct d s => i = d ∨ i = s

/-- C12 over histories: objects that are never a destination or moved from keep their value. -/
theorem C12_history_frame (abs : Nat → Int → Outcome Int) (w : Nat) (cs : List Stmt) (st st' : Store) (i : Nat)
    (hi : ∀ c ∈ cs, ¬ c.Touches i) (h : exec abs w st cs = .ok st') : st' i = st i := by
  induction cs generalizing st with
  | nil => cases h; rfl
  | cons c cs ih =>
    simp only [exec, Outcome.bind_eq_ok] at h
    obtain ⟨st1, h1, h2⟩ := h
    rw [ih st1 (fun c hc => hi c (List.mem_cons_of_mem _ hc)) h2]
    have hc := hi c (List.mem_cons_self ..)
    cases c with
    | copy d s => cases h1; exact if_neg hc
    | moveAssign d s =>
      cases h1
      simp only [Stmt.Touches, not_or] at hc
      simp [Store.set, hc.1, hc.2]
    | moveConstruct d s =>
      cases h1
      simp only [Stmt.Touches, not_or] at hc
      simp [Store.set, hc.1, hc.2]
    | addAssign d s =>
      obtain ⟨v, -, rfl⟩ := ((C12_compound abs w st st1 d s).1).1 h1
      exact if_neg hc
    | subAssign d s =>
      obtain ⟨v, -, rfl⟩ := ((C12_compound abs w st st1 d s).2).1 h1
      exact if_neg hc

example : ∃ st', exec strictAbs 64 (fun i => if i = 0 then 5 else if i = 1 then 8 else 0)
      [.addAssign 0 0, .moveAssign 2 0, .subAssign 2 1, .copy 0 2] = .ok st' ∧
      st' 0 = 2 ∧ st' 1 = 8 ∧ st' 2 = 2 := ⟨_, rfl, by decide, by decide, by decide⟩

end Uavcan.Time
