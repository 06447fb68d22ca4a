import Verif.Spec.TimeTest

/-!
# C137: what the validation suite says about classes for durations and times

Continues C83 to C85 (`Props/Suite`).
-/

namespace Uavcan.TimeTest
open Spec

/-- The property as stated in `properties.jsonl`: the tests accept the right classes and no others. -/
def C137_Statement : Prop :=
  ∀ (w : Nat), 8 ≤ w → ∀ (δ τ : Type) (d : DurationClass δ) (t : TimeClass δ τ),
    (durationPasses d w = true ↔ RightDuration d w) ∧ (RightDuration d w → (timePasses d t w = true ↔ RightTime d t w))

theorem pow_ge {w : Nat} (hw : 8 ≤ w) : (128 : Int) ≤ 2 ^ (w - 1) ∧ (2 : Int) ^ w = 2 * 2 ^ (w - 1) := by
  constructor
  · have : (2 : Nat) ^ 7 ≤ 2 ^ (w - 1) := Nat.pow_le_pow_right (by decide) (by omega)
    have : ((2 ^ 7 : Nat) : Int) ≤ ((2 ^ (w - 1) : Nat) : Int) := by exact_mod_cast this
    simpa using this
  · obtain ⟨n, rfl⟩ : ∃ n, w = n + 1 := ⟨w - 1, by omega⟩
    rw [Nat.add_sub_cancel, Int.pow_succ, Int.mul_comm]

section
variable {σ : Type} {c : Values σ} {lo hi : Int}

theorem values_comparison (h : RightValues c lo hi) : comparisonOperators c = true := by
  have e1 := (h.eq c.dflt c.dflt).2 rfl
  have e2 : c.ne c.dflt c.dflt = false := Bool.eq_false_iff.2 fun x => (h.ne _ _).1 x rfl
  have e3 : c.lt c.dflt c.dflt = false := Bool.eq_false_iff.2 fun x => Int.lt_irrefl _ ((h.lt _ _).1 x)
  have e4 : c.gt c.dflt c.dflt = false := Bool.eq_false_iff.2 fun x => Int.lt_irrefl _ ((h.gt _ _).1 x)
  have e5 := (h.le c.dflt c.dflt).2 (Int.le_refl _)
  have e6 := (h.ge c.dflt c.dflt).2 (Int.le_refl _)
  simp [comparisonOperators, e1, e2, e3, e4, e5, e6]

theorem values_default (h : RightValues c lo hi) (h0 : lo ≤ 0) (h2 : 2 ≤ hi) : defaultOperations c = true := by
  have e := h.round_trip 2 (by omega) h2
  simp [defaultOperations, h.dflt, h.copyAssign, h.copyConstruct, h.moveConstruct, h.moveAssign, e]

theorem values_concept (h : RightValues c lo hi) (h0 : lo ≤ 0) (h2 : 100 ≤ hi) : conceptFromMicrosecond c = true := by
  simp [conceptFromMicrosecond, h.round_trip 100 (by omega) h2]

theorem values_maximum (h : RightValues c lo hi) (h0 : lo ≤ hi) : TimeTest.getMaximum c hi = true := by
  unfold TimeTest.getMaximum
  rw [h.eq, h.round_trip hi h0 (Int.le_refl _), h.getMaximum]

end

/-- C137, partial: what a duration class that holds and compares numbers rightly has to answer to pass, and that nothing else is asked: thirteen questions. Missing: everything else, see
`C137_full_statement_fails`. -/
theorem C137_duration_meaning_partial {δ : Type} {d : DurationClass δ} {w : Nat} (hw : 8 ≤ w) (h : RightValues d.toValues (-(2 ^ (w - 1))) (2 ^ (w - 1) - 1)) :
    durationPasses d w = true ↔
      d.toMicrosecond (d.add (d.fromMicrosecond (2 ^ (w - 1) - 1)) (d.fromMicrosecond 1)) = 2 ^ (w - 1) - 1 ∧
      d.toMicrosecond (d.sub (d.fromMicrosecond (-(2 ^ (w - 1)))) (d.fromMicrosecond 1)) = -(2 ^ (w - 1)) ∧
      d.toMicrosecond (d.getAbs (d.fromMicrosecond (-1))) = 1 ∧
      d.toMicrosecond (d.getAbs (d.moveAssign (d.fromMicrosecond (-1)) (d.fromMicrosecond 1)).1) = 1 ∧
      d.toMicrosecond (d.addAssign (d.fromMicrosecond 1) (d.fromMicrosecond 1)) = 2 ∧
      d.toMicrosecond (d.addAssign (d.addAssign (d.fromMicrosecond 1) (d.fromMicrosecond 1)) d.getMaximum) = 2 ^ (w - 1) - 1 ∧
      d.toMicrosecond (d.sub d.getMaximum (d.fromMicrosecond 10)) =
        d.toMicrosecond (d.subAssign (d.addAssign (d.addAssign (d.fromMicrosecond 1) (d.fromMicrosecond 1)) d.getMaximum) (d.fromMicrosecond 10)) ∧
      d.toMicrosecond (d.neg (d.fromMicrosecond 1)) = -1 ∧
      d.toMicrosecond (d.neg d.getMaximum) = -(2 ^ (w - 1)) + 1 ∧
      d.toMicrosecond (d.neg (d.sub d.getMaximum (d.fromMicrosecond 1))) = -(2 ^ (w - 1)) + 2 ∧
      d.toMicrosecond (d.neg (d.fromMicrosecond (-(2 ^ (w - 1))))) = 2 ^ (w - 1) - 1 ∧
      d.toMicrosecond (d.neg (d.fromMicrosecond (-(2 ^ (w - 1)) + 1))) = 2 ^ (w - 1) - 1 ∧
      d.toMicrosecond (d.neg (d.fromMicrosecond (-(2 ^ (w - 1)) + 2))) = 2 ^ (w - 1) - 2 := by
  have hp := (pow_ge hw).1
  have r1 := h.round_trip 2 (by omega) (by omega)
  have r2 := h.round_trip (-1) (by omega) (by omega)
  have r3 := h.round_trip (-(2 ^ (w - 1)) + 1) (by omega) (by omega)
  have r4 := h.round_trip (-(2 ^ (w - 1)) + 2) (by omega) (by omega)
  have r5 := h.round_trip (2 ^ (w - 1) - 1) (by omega) (by omega)
  have r6 := h.round_trip (2 ^ (w - 1) - 1 - 1) (by omega) (by omega)
  have rm := h.getMaximum
  have c1 := values_comparison h
  have c2 := values_default h (by omega) (by omega)
  have c3 := values_concept h (by omega) (by omega)
  have c4 := values_maximum h (by omega)
  simp only [durationPasses, intMin, intMax, Bool.and_eq_true, saturatedAdd, saturatedSubtract, absoluteValue, durationArithmetic, beq_iff_eq, h.eq, r1, r2, r3, r4, r5, r6, rm]
  constructor
  · rintro ⟨⟨⟨⟨⟨-, a2⟩, -⟩, a3⟩, a4, a5⟩, b1, b2, ⟨⟨⟨⟨⟨b3, b4⟩, b5⟩, b6⟩, b7⟩, b8⟩, b9⟩
    exact ⟨a2, a3, a4, a5, b1.symm, b2.symm, b3, b4.symm, b5.symm, b6.symm, b7.symm, b8.symm, by omega⟩
  · rintro ⟨a2, a3, a4, a5, b1, b2, b3, b4, b5, b6, b7, b8, b9⟩
    exact ⟨⟨⟨⟨⟨⟨⟨c1, c2⟩, c3⟩, a2⟩, c4⟩, a3⟩, a4, a5⟩, b1.symm, b2.symm, ⟨⟨⟨⟨⟨b3, b4.symm⟩, b5.symm⟩, b6.symm⟩, b7.symm⟩, b8.symm⟩, by omega⟩

theorem castS_max {w : Nat} (hw : 8 ≤ w) {v : Int} (h0 : 0 ≤ v) (h1 : v ≤ 2 ^ w - 1) : castS w v = 2 ^ (w - 1) - 1 ↔ v = 2 ^ (w - 1) - 1 := by
  obtain ⟨hp, h2⟩ := pow_ge hw
  have hn : ((2 ^ w : Nat) : Int) = 2 * 2 ^ (w - 1) := by rw [Int.natCast_pow]; exact h2
  unfold castS
  by_cases h : v < 2 ^ (w - 1)
  · rw [Int.bmod_eq_of_le (by rw [hn]; omega) (by rw [hn]; omega)]
  · have e : Int.bmod v (2 ^ w) = v - 2 * 2 ^ (w - 1) := by
      rw [← hn, ← Int.sub_bmod_right]
      exact Int.bmod_eq_of_le (by rw [hn]; omega) (by rw [hn]; omega)
    rw [e]
    omega

theorem castS_range {w : Nat} (hw : 8 ≤ w) {v : Int} (h0 : 0 ≤ v) (h1 : v ≤ 2 ^ w - 1) : -(2 ^ (w - 1)) ≤ castS w v ∧ castS w v ≤ 2 ^ (w - 1) - 1 := by
  obtain ⟨hp, h2⟩ := pow_ge hw
  have hn : ((2 ^ w : Nat) : Int) = 2 * 2 ^ (w - 1) := by rw [Int.natCast_pow]; exact h2
  unfold castS
  by_cases h : v < 2 ^ (w - 1)
  · rw [Int.bmod_eq_of_le (by rw [hn]; omega) (by rw [hn]; omega)]
    omega
  · have e : Int.bmod v (2 ^ w) = v - 2 * 2 ^ (w - 1) := by
      rw [← hn, ← Int.sub_bmod_right]
      exact Int.bmod_eq_of_le (by rw [hn]; omega) (by rw [hn]; omega)
    rw [e]
    omega

/-- C137, partial: the same for time classes, if those for durations are right about numbers as well: six questions. Of the operators `+` and `-` it is only asked whether the greatest time plus
1 is the greatest, and 0 minus 1 is 0. -/
theorem C137_time_meaning_partial {δ τ : Type} {d : DurationClass δ} {t : TimeClass δ τ} {w : Nat} (hw : 8 ≤ w)
    (hd : RightValues d.toValues (-(2 ^ (w - 1))) (2 ^ (w - 1) - 1)) (ht : RightValues t.toValues 0 (2 ^ w - 1)) :
    timePasses d t w = true ↔
      t.toMicrosecond (t.add (t.fromMicrosecond (2 ^ w - 1)) (d.fromMicrosecond 1)) = 2 ^ w - 1 ∧
      t.toMicrosecond (t.sub (t.fromMicrosecond 0) (d.fromMicrosecond 1)) = 0 ∧
      t.toMicrosecond (t.addAssign (t.fromMicrosecond 1) (d.fromMicrosecond 1)) = 2 ∧
      t.toMicrosecond (t.addAssign (t.fromMicrosecond 0) d.getMaximum) = 2 ^ (w - 1) - 1 ∧
      t.toMicrosecond (t.addAssign t.getMaximum d.getMaximum) = 2 ^ w - 1 ∧
      t.toMicrosecond (t.subAssign (t.fromMicrosecond 1) (d.fromMicrosecond 1)) = 0 := by
  obtain ⟨hp, h2⟩ := pow_ge hw
  have r1 := ht.round_trip 2 (by omega) (by omega)
  have r2 := ht.round_trip 0 (by omega) (by omega)
  have rg := ht.range (t.addAssign (t.fromMicrosecond 0) d.getMaximum)
  have rc := castS_range hw rg.1 rg.2
  have r3 := hd.round_trip _ rc.1 rc.2
  have rm := castS_max hw rg.1 rg.2
  have c1 := values_comparison ht
  have c2 := values_default ht (by omega) (by omega)
  have c3 := values_concept ht (by omega) (by omega)
  have c4 := values_maximum ht (by omega)
  simp only [timePasses, uintMax, Bool.and_eq_true, saturatedAdd, saturatedSubtract, timeArithmetic, beq_iff_eq, ht.eq, hd.eq, r1, r2, r3, hd.getMaximum, ht.getMaximum]
  rw [eq_comm (a := (2 : Int) ^ (w - 1) - 1) (b := castS w _), rm]
  constructor
  · rintro ⟨⟨⟨⟨-, a2⟩, -⟩, a3⟩, b1, ⟨⟨b2, b3⟩, b4⟩⟩
    exact ⟨a2, a3, b1.symm, b2, b3.symm, b4.symm⟩
  · rintro ⟨a2, a3, b1, b2, b3, b4⟩
    exact ⟨⟨⟨⟨⟨⟨c1, c2⟩, c3⟩, a2⟩, c4⟩, a3⟩, b1.symm, ⟨⟨b2, b3.symm⟩, b4.symm⟩⟩

/-- C137, partial: right classes pass. -/
theorem C137_right_pass_partial {δ τ : Type} {d : DurationClass δ} {t : TimeClass δ τ} {w : Nat} (hw : 8 ≤ w) (hd : RightDuration d w) :
    durationPasses d w = true ∧ (RightTime d t w → timePasses d t w = true) := by
  obtain ⟨hp, h2⟩ := pow_ge hw
  have q1 := hd.values.round_trip 1 (by omega) (by omega)
  have qm := hd.values.getMaximum
  constructor
  · rw [C137_duration_meaning_partial hw hd.values]
    have q2 := hd.values.round_trip 10 (by omega) (by omega)
    have q3 := hd.values.round_trip (2 ^ (w - 1) - 1) (by omega) (by omega)
    have q4 := hd.values.round_trip (-(2 ^ (w - 1))) (by omega) (by omega)
    have q5 := hd.values.round_trip (-1) (by omega) (by omega)
    have q6 := hd.values.round_trip (-(2 ^ (w - 1)) + 1) (by omega) (by omega)
    have q7 := hd.values.round_trip (-(2 ^ (w - 1)) + 2) (by omega) (by omega)
    simp only [hd.add, hd.sub, hd.addAssign, hd.subAssign, hd.neg, hd.getAbs, (hd.values.moveAssign _ _).1, q1, q2, q3, q4, q5, q6, q7, qm, signedClamp, clamp]
    omega
  · intro ht
    rw [C137_time_meaning_partial hw hd.values ht.values]
    have p1 := ht.values.round_trip 1 (by omega) (by omega)
    have p2 := ht.values.round_trip 0 (by omega) (by omega)
    have p3 := ht.values.round_trip (2 ^ w - 1) (by omega) (by omega)
    simp only [ht.add, ht.sub, ht.addAssign, ht.subAssign, q1, qm, p1, p2, p3, ht.values.getMaximum, unsignedClamp, clamp]
    omega

/-- A time class, but `+` and `-` ignore the duration. -/
def ignoring {δ τ : Type} (t : TimeClass δ τ) : TimeClass δ τ := { t with add := fun a _ => a, sub := fun a _ => a }

/-- C137: such a class passes, if the rest of it is right. -/
theorem C137_ignoring_passes {δ τ : Type} {d : DurationClass δ} {t : TimeClass δ τ} {w : Nat} (hw : 8 ≤ w) (hd : RightDuration d w) (ht : RightTime d t w) :
    timePasses d (ignoring t) w = true ∧ ¬ RightTime d (ignoring t) w := by
  obtain ⟨hp, h2⟩ := pow_ge hw
  have p1 := ht.values.round_trip 1 (by omega) (by omega)
  have p2 := ht.values.round_trip 0 (by omega) (by omega)
  have p3 := ht.values.round_trip (2 ^ w - 1) (by omega) (by omega)
  have q1 := hd.values.round_trip 1 (by omega) (by omega)
  constructor
  · have h := (C137_time_meaning_partial hw hd.values ht.values).1 ((C137_right_pass_partial hw hd).2 ht)
    exact (C137_time_meaning_partial (t := ignoring t) hw hd.values ht.values).2 ⟨p3, p2, h.2.2⟩
  · intro h
    have := h.add (t.fromMicrosecond 1) (d.fromMicrosecond 1)
    rw [q1, show (ignoring t).toMicrosecond (t.fromMicrosecond 1) = 1 from p1,
      show (ignoring t).toMicrosecond ((ignoring t).add (t.fromMicrosecond 1) (d.fromMicrosecond 1)) = 1 from p1] at this
    simp only [unsignedClamp, clamp] at this
    omega

/-- A class whose objects are neither less nor greater than others. -/
def unordered {σ : Type} (c : Values σ) : Values σ := { c with lt := fun _ _ => false, gt := fun _ _ => false, le := fun _ _ => true, ge := fun _ _ => true }

/-- C137: the order of values is not tested. -/
theorem C137_unordered_passes {δ τ : Type} {d : DurationClass δ} {t : TimeClass δ τ} {w : Nat} :
    (durationPasses d w = true → durationPasses { d with toValues := unordered d.toValues } w = true) ∧
    (timePasses d t w = true → timePasses d { t with toValues := unordered t.toValues } w = true) := by
  constructor
  · intro h
    simp only [durationPasses, comparisonOperators, Bool.and_eq_true] at h ⊢
    obtain ⟨⟨⟨⟨⟨⟨⟨⟨⟨⟨⟨⟨a1, a2⟩, -⟩, -⟩, -⟩, -⟩, b⟩, b'⟩, c⟩, e⟩, f⟩, g⟩, i⟩ := h
    exact ⟨⟨⟨⟨⟨⟨⟨⟨⟨⟨⟨⟨a1, a2⟩, rfl⟩, rfl⟩, rfl⟩, rfl⟩, b⟩, b'⟩, c⟩, e⟩, f⟩, g⟩, i⟩
  · intro h
    simp only [timePasses, comparisonOperators, Bool.and_eq_true] at h ⊢
    obtain ⟨⟨⟨⟨⟨⟨⟨⟨⟨⟨⟨a1, a2⟩, -⟩, -⟩, -⟩, -⟩, b⟩, b'⟩, c⟩, e⟩, f⟩, g⟩ := h
    exact ⟨⟨⟨⟨⟨⟨⟨⟨⟨⟨⟨a1, a2⟩, rfl⟩, rfl⟩, rfl⟩, rfl⟩, b⟩, b'⟩, c⟩, e⟩, f⟩, g⟩

/-- A duration class for which all durations are equal, and of which `+=`, `-=` and the sign `-` do nothing. -/
def indifferent {δ : Type} (d : DurationClass δ) : DurationClass δ :=
  { d with toValues := unordered { d.toValues with eq := fun _ _ => true, ne := fun _ _ => false }, addAssign := fun a _ => a, subAssign := fun a _ => a, neg := fun a => a }

/-- C137: such a class passes, if the rest of it is right. -/
theorem C137_indifferent_passes {δ : Type} {d : DurationClass δ} {w : Nat} (hw : 8 ≤ w) (hd : RightDuration d w) : durationPasses (indifferent d) w = true := by
  have hp := (pow_ge hw).1
  have h := (C137_right_pass_partial (t := (⟨d.toValues, d.add, d.sub, d.add, d.sub⟩ : TimeClass δ δ)) hw hd).1
  simp only [durationPasses, Bool.and_eq_true] at h ⊢
  obtain ⟨⟨⟨⟨⟨⟨⟨-, b⟩, b'⟩, c⟩, -⟩, f⟩, g⟩, -⟩ := h
  exact ⟨⟨⟨⟨⟨⟨⟨rfl, b⟩, b'⟩, c⟩, rfl⟩, f⟩, g⟩, rfl⟩

/-- C137: a class of which moving is copying, as it is for numbers, does not pass. -/
theorem C137_plain_move_refused {δ : Type} {d : DurationClass δ} {w : Nat} (hm : ∀ a, d.moveConstruct a = (a, a)) : durationPasses d w = false := by
  cases h : durationPasses d w with
  | false => rfl
  | true =>
    simp only [durationPasses, defaultOperations, Bool.and_eq_true, beq_iff_eq, hm] at h
    obtain ⟨⟨⟨⟨⟨⟨⟨-, b⟩, -⟩, -⟩, -⟩, -⟩, -⟩, -⟩ := h
    omega

/-- A duration class that is right: numbers, brought into range when they are looked at. -/
def idealDuration (w : Nat) : DurationClass Int where
  dflt := 0
  fromMicrosecond v := v
  toMicrosecond := signedClamp w
  copyConstruct a := (a, a)
  copyAssign _ b := (b, b)
  moveConstruct a := (a, 0)
  moveAssign _ b := (b, 0)
  eq a b := signedClamp w a == signedClamp w b
  ne a b := signedClamp w a != signedClamp w b
  lt a b := decide (signedClamp w a < signedClamp w b)
  gt a b := decide (signedClamp w a > signedClamp w b)
  le a b := decide (signedClamp w a ≤ signedClamp w b)
  ge a b := decide (signedClamp w a ≥ signedClamp w b)
  getMaximum := 2 ^ (w - 1) - 1
  add a b := signedClamp w a + signedClamp w b
  sub a b := signedClamp w a - signedClamp w b
  addAssign a b := signedClamp w a + signedClamp w b
  subAssign a b := signedClamp w a - signedClamp w b
  neg a := -signedClamp w a
  getAbs a := max (signedClamp w a) (-signedClamp w a)

/-- A time class that is right. -/
def idealTime (w : Nat) : TimeClass Int Int where
  dflt := 0
  fromMicrosecond v := v
  toMicrosecond := unsignedClamp w
  copyConstruct a := (a, a)
  copyAssign _ b := (b, b)
  moveConstruct a := (a, 0)
  moveAssign _ b := (b, 0)
  eq a b := unsignedClamp w a == unsignedClamp w b
  ne a b := unsignedClamp w a != unsignedClamp w b
  lt a b := decide (unsignedClamp w a < unsignedClamp w b)
  gt a b := decide (unsignedClamp w a > unsignedClamp w b)
  le a b := decide (unsignedClamp w a ≤ unsignedClamp w b)
  ge a b := decide (unsignedClamp w a ≥ unsignedClamp w b)
  getMaximum := 2 ^ w - 1
  add a b := unsignedClamp w a + signedClamp w b
  sub a b := unsignedClamp w a - signedClamp w b
  addAssign a b := unsignedClamp w a + signedClamp w b
  subAssign a b := unsignedClamp w a - signedClamp w b

theorem ideal_right {w : Nat} (hw : 8 ≤ w) : RightDuration (idealDuration w) w ∧ RightTime (idealDuration w) (idealTime w) w := by
  obtain ⟨hp, h2⟩ := pow_ge hw
  have s : ∀ a, -(2 ^ (w - 1)) ≤ signedClamp w a ∧ signedClamp w a ≤ 2 ^ (w - 1) - 1 := fun a => by unfold signedClamp clamp; omega
  have s' : ∀ a, -(2 ^ (w - 1)) ≤ a → a ≤ 2 ^ (w - 1) - 1 → signedClamp w a = a := fun a _ _ => by unfold signedClamp clamp; omega
  have u : ∀ a, 0 ≤ unsignedClamp w a ∧ unsignedClamp w a ≤ 2 ^ w - 1 := fun a => by unfold unsignedClamp clamp; omega
  have u' : ∀ a, 0 ≤ a → a ≤ 2 ^ w - 1 → unsignedClamp w a = a := fun a _ _ => by unfold unsignedClamp clamp; omega
  constructor
  · refine ⟨⟨s, s' 0 (by omega) (by omega), s', fun a => ⟨rfl, rfl⟩, fun a b => ⟨rfl, rfl⟩, fun a => ⟨rfl, s' 0 (by omega) (by omega)⟩, fun a b => ⟨rfl, s' 0 (by omega) (by omega)⟩,
      ?_, ?_, ?_, ?_, ?_, ?_, s' (2 ^ (w - 1) - 1) (by omega) (by omega)⟩, fun a b => rfl, fun a b => rfl, fun a b => rfl, fun a b => rfl, fun a => rfl, fun a => rfl⟩ <;> intro a b <;> simp [idealDuration]
  · refine ⟨⟨u, u' 0 (by omega) (by omega), u', fun a => ⟨rfl, rfl⟩, fun a b => ⟨rfl, rfl⟩, fun a => ⟨rfl, u' 0 (by omega) (by omega)⟩, fun a b => ⟨rfl, u' 0 (by omega) (by omega)⟩,
      ?_, ?_, ?_, ?_, ?_, ?_, u' (2 ^ w - 1) (by omega) (by omega)⟩, fun a b => rfl, fun a b => rfl, fun a b => rfl, fun a b => rfl⟩ <;> intro a b <;> simp [idealTime]

/-- Right classes exist, and they pass. -/
example : durationPasses (idealDuration 64) 64 = true ∧ timePasses (idealDuration 64) (idealTime 64) 64 = true :=
  ⟨(C137_right_pass_partial (t := idealTime 64) (by decide) (ideal_right (by decide)).1).1,
    (C137_right_pass_partial (by decide) (ideal_right (by decide)).1).2 (ideal_right (by decide)).2⟩

/-- C137 is false, for durations and for times: all durations may be equal, and adding to a time need not add. -/
theorem C137_full_statement_fails : ¬ C137_Statement ∧
    (∀ w, 8 ≤ w → durationPasses (indifferent (idealDuration w)) w = true ∧ ¬ RightDuration (indifferent (idealDuration w)) w) ∧
    ∀ w, 8 ≤ w → timePasses (idealDuration w) (ignoring (idealTime w)) w = true ∧ ¬ RightTime (idealDuration w) (ignoring (idealTime w)) w := by
  have k2 : ∀ w, 8 ≤ w → timePasses (idealDuration w) (ignoring (idealTime w)) w = true ∧ ¬ RightTime (idealDuration w) (ignoring (idealTime w)) w := fun w hw =>
    C137_ignoring_passes hw (ideal_right hw).1 (ideal_right hw).2
  refine ⟨fun h => (k2 8 (Nat.le_refl 8)).2 (((h 8 (Nat.le_refl 8) _ _ (idealDuration 8) (ignoring (idealTime 8))).2 (ideal_right (Nat.le_refl 8)).1).1 (k2 8 (Nat.le_refl 8)).1), fun w hw =>
    ⟨C137_indifferent_passes hw (ideal_right hw).1, fun h => ?_⟩, k2⟩
  have hp := (pow_ge hw).1
  have := (h.values.eq 0 1).1 rfl
  have e : ∀ a, (indifferent (idealDuration w)).toMicrosecond a = signedClamp w a := fun a => rfl
  rw [e, e] at this
  simp only [signedClamp, clamp] at this
  omega

end Uavcan.TimeTest
