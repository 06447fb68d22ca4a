/-!
# Specification of saturating arithmetic
-/

namespace Uavcan.Spec

/-- `clamp lo hi x` is the point of `[lo, hi]` closest to `x`. -/
def clamp (lo hi x : Int) : Int := max lo (min hi x)

/-- The range of a signed type of `w` bits, written out independently of the model. -/
def signedClamp (w : Nat) (x : Int) : Int := clamp (-(2 ^ (w - 1))) (2 ^ (w - 1) - 1) x

/-- The range of an unsigned type of `w` bits, written out independently of the model. -/
def unsignedClamp (w : Nat) (x : Int) : Int := clamp 0 (2 ^ w - 1) x

/-- `x` is a value of a signed two's complement type of `w` bits. -/
def IsInt (w : Nat) (x : Int) : Prop := -(2 ^ (w - 1)) ≤ x ∧ x ≤ 2 ^ (w - 1) - 1

/-- `x` is a value of an unsigned type of `w` bits. -/
def IsUInt (w : Nat) (x : Int) : Prop := 0 ≤ x ∧ x ≤ 2 ^ w - 1

instance (w : Nat) (x : Int) : Decidable (IsInt w x) := inferInstanceAs (Decidable (_ ∧ _))
instance (w : Nat) (x : Int) : Decidable (IsUInt w x) := inferInstanceAs (Decidable (_ ∧ _))

/-! `clamp` is what it should be, stated without `max` and `min`. -/

theorem clamp_of_mem {lo hi x : Int} (h1 : lo ≤ x) (h2 : x ≤ hi) : clamp lo hi x = x := by
  unfold clamp; omega

theorem clamp_of_lt {lo hi x : Int} (_ : lo ≤ hi) (h1 : x < lo) : clamp lo hi x = lo := by
  unfold clamp; omega

theorem clamp_of_gt {lo hi x : Int} (h : lo ≤ hi) (h1 : hi < x) : clamp lo hi x = hi := by
  unfold clamp; omega

end Uavcan.Spec
