import Verif.Spec.ResultTest

/-!
# C146: the unit tests of `Result`
-/

namespace Uavcan.ResultTest
open Uavcan.Spec

/-- C146: what passes the tests is right. -/
def C146_Statement : Prop := ∀ c, passes c = true → RightImpl c

/-- What is right passes. -/
theorem C146_right_passes (c : Impl) (h : RightImpl c) : passes c = true := by
  have b1 := (h .Success).1.2 (by decide)
  have b2 : c.bang .Failure = true := by
    cases e : c.bang .Failure with
    | true => rfl
    | false => exact absurd ((h .Failure).1.1 e) (by decide)
  have s1 := (h .Success).2.1.2 (by decide)
  have s2 := (h .SuccessTimeout).2.1.2 (by decide)
  have s3 : c.isSuccess .Failure = false := by
    cases e : c.isSuccess .Failure with
    | false => rfl
    | true => exact absurd ((h .Failure).2.1.1 e) (by decide)
  have s4 : c.isSuccess .BadArgument = false := by
    cases e : c.isSuccess .BadArgument with
    | false => rfl
    | true => exact absurd ((h .BadArgument).2.1.1 e) (by decide)
  have f1 : c.isFailure .Failure = true := by
    cases e : c.isFailure .Failure with
    | true => rfl
    | false => exact absurd ((h .Failure).2.2.1 e) (by decide)
  have f2 := (h .Success).2.2.2 (by decide)
  have f3 : c.isFailure .BadArgument = true := by
    cases e : c.isFailure .BadArgument with
    | true => rfl
    | false => exact absurd ((h .BadArgument).2.2.1 e) (by decide)
  have f4 := (h .SuccessNothing).2.2.2 (by decide)
  simp [passes, bangOperator, successHelper, failureHelper, b1, b2, s1, s2, s3, s4, f1, f2, f3, f4]

/-- The library is right, and passes. -/
theorem C146_library : RightImpl library ∧ passes library = true := by
  have h : RightImpl library := by
    intro r
    cases r <;> decide
  exact ⟨h, C146_right_passes _ h⟩

/-- What the tests ask for: these ten answers and no others. -/
theorem C146_asks (c : Impl) : passes c = true ↔
    (c.bang .Success = false ∧ c.bang .Failure = true) ∧
    (c.isSuccess .Success = true ∧ c.isSuccess .SuccessTimeout = true ∧ c.isSuccess .Failure = false ∧ c.isSuccess .BadArgument = false) ∧
    (c.isFailure .Failure = true ∧ c.isFailure .BadArgument = true ∧ c.isFailure .Success = false ∧ c.isFailure .SuccessNothing = false) := by
  simp only [passes, bangOperator, successHelper, failureHelper, List.cons_append, List.nil_append, List.all_cons, List.all_nil, id, Bool.and_eq_true, Bool.not_eq_true', Bool.not_eq_false', and_true]
  constructor
  · rintro ⟨a, -, b, -, d, e, f, g, i, j, k, l⟩
    exact ⟨⟨a, b⟩, ⟨d, f, e, g⟩, i, k, j, l⟩
  · rintro ⟨⟨a, b⟩, ⟨d, f, e, g⟩, i, k, j, l⟩
    exact ⟨a, a, b, b, d, e, f, g, i, j, k, l⟩

/-- The library with `<` instead of `<=`, by which `BufferFull` is a success. -/
def offByOne : Impl := ⟨fun r => r.code < 0, fun r => !decide (r.code < 0), fun r => r.code < 0⟩

/-- C146 is false: the library with `<` instead of `<=` passes, though a full buffer is then a success. -/
theorem C146_full_statement_fails : ¬ C146_Statement ∧ passes offByOne = true ∧ Graded offByOne := by
  refine ⟨fun h => ?_, rfl, ?_⟩
  · have := (h offByOne rfl .BufferFull).2.1.1 rfl
    revert this
    decide
  · intro a b hab
    simp only [offByOne, decide_eq_true_eq, Bool.not_eq_true', decide_eq_false_iff_not]
    omega

/-- C146 for implementations that compare values with a limit: those that pass are right about all results but `BufferFull`. Missing from the full statement: `BufferFull`, whose value is the
only one that is 0, and implementations that treat results one by one; for both it is false. -/
theorem C146_graded_partial (c : Impl) (hg : Graded c) (hp : passes c = true) (r : Result) (hr : r ≠ .BufferFull) :
    (c.bang r = false ↔ r ∈ successes) ∧ (c.isSuccess r = true ↔ r ∈ successes) ∧ (c.isFailure r = false ↔ r ∈ successes) := by
  obtain ⟨⟨b1, b2⟩, ⟨s1, -, s3, -⟩, f1, -, f3, -⟩ := (C146_asks c).1 hp
  by_cases h : r ∈ successes
  · have hc : Result.Success.code ≤ r.code := by
      simp only [successes, List.mem_cons, List.not_mem_nil, or_false] at h
      rcases h with rfl | rfl | rfl | rfl <;> decide
    obtain ⟨g1, g2, g3⟩ := hg _ _ hc
    refine ⟨⟨fun _ => h, fun _ => ?_⟩, ⟨fun _ => h, fun _ => g2 s1⟩, ⟨fun _ => h, fun _ => ?_⟩⟩
    · cases e : c.bang r with
      | false => rfl
      | true => rw [g1 e] at b1; cases b1
    · cases e : c.isFailure r with
      | false => rfl
      | true => rw [g3 e] at f3; cases f3
  · have hc : r.code ≤ Result.Failure.code := by
      cases r <;> first | exact absurd rfl hr | exact absurd (by decide) h | decide
    obtain ⟨g1, g2, g3⟩ := hg _ _ hc
    refine ⟨⟨fun e => ?_, fun e => absurd e h⟩, ⟨fun e => ?_, fun e => absurd e h⟩, ⟨fun e => ?_, fun e => absurd e h⟩⟩
    · rw [g1 b2] at e; cases e
    · rw [g2 e] at s3; cases s3
    · rw [g3 f1] at e; cases e

/-- With one assertion more, that `BufferFull` is a failure to all three functions, it is true of them. -/
theorem C146_one_more (c : Impl) (hg : Graded c) (hp : passes c = true) (hb : c.bang .BufferFull = true ∧ c.isSuccess .BufferFull = false ∧ c.isFailure .BufferFull = true) : RightImpl c := by
  intro r
  by_cases hr : r = .BufferFull
  · subst hr
    rw [hb.1, hb.2.1, hb.2.2]
    decide
  · exact C146_graded_partial c hg hp r hr

/-- One that treats results one by one: it passes, and takes `OutOfMemory` for a success. -/
example : passes ⟨Result.not, fun r => r.isSuccess || r == .OutOfMemory, Result.isFailure⟩ = true ∧
    ¬ RightImpl ⟨Result.not, fun r => r.isSuccess || r == .OutOfMemory, Result.isFailure⟩ :=
  ⟨rfl, fun h => absurd ((h .OutOfMemory).2.1.1 rfl) (by decide)⟩

end Uavcan.ResultTest
