import Verif.Model.ResultTest

/-!
# Specification: what the functions on `Result` are to say

The comments at the enumerators (libuavcan.hpp 36–94) and at the functions (98–128): results with a positive value are successes, all others failures.
-/

namespace Uavcan.Spec
open ResultTest

/-- The results that are successes. -/
def successes : List Result := [.Success, .SuccessPartial, .SuccessNothing, .SuccessTimeout]

/-- An implementation that says so. -/
def RightImpl (c : Impl) : Prop := ∀ r, (c.bang r = false ↔ r ∈ successes) ∧ (c.isSuccess r = true ↔ r ∈ successes) ∧ (c.isFailure r = false ↔ r ∈ successes)

/-- An implementation that compares values with some limit or other: what is said of a value decides for those beyond it. -/
def Graded (c : Impl) : Prop :=
  ∀ a b, a.code ≤ b.code → (c.bang b = true → c.bang a = true) ∧ (c.isSuccess a = true → c.isSuccess b = true) ∧ (c.isFailure b = true → c.isFailure a = true)

end Uavcan.Spec
