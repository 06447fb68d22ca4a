import Verif.Model.Result

/-! # C35: result predicates -/

namespace Uavcan

/-- C35: the predicates. -/
theorem C35_predicates (r : Result) :
    (r.isSuccess = true ↔ 0 < r.code) ∧ (r.isSuccess = true ↔ (!r.not) = true) ∧
    (r.isFailure = true ↔ r.not = true) ∧ (r.isFailure = true ↔ ¬ r.isSuccess = true) := by
  cases r <;> decide

/-- C35: the codes are distinct, and the four results whose names start with `Success` are the successes. -/
theorem C35_codes (r s : Result) :
    (r.code = s.code ↔ r = s) ∧
    (r.isSuccess = true ↔ r = .Success ∨ r = .SuccessPartial ∨ r = .SuccessNothing ∨ r = .SuccessTimeout) ∧
    -128 ≤ r.code ∧ r.code ≤ 127 := by
  cases r <;> cases s <;> decide

example : Result.BufferFull.isFailure = true ∧ Result.SuccessTimeout.isSuccess = true := by decide

end Uavcan
