/-!
# Specification of the core clock

From the reference manual as quoted in the comments of the code: fields of the registers as numbers, and the frequency they
stand for.
-/

namespace Uavcan.CoreClock.Spec

/-- The field of `w` bits from bit `lo` on. -/
def field (v : BitVec 32) (lo w : Nat) : Nat := v.toNat / 2 ^ lo % 2 ^ w

/-- The frequency of the clock source selected, in Hz, as a rational (numerator, denominator); `none`: no such source. -/
def source (csr sirccfg firccfg spllcfg : BitVec 32) : Option (Nat × Nat) :=
  match field csr 24 4 with
  | 1 => some (8000000, 1)
  | 2 => some (if field sirccfg 0 1 = 1 then 8000000 else 2000000, 1)
  | 3 => some (48000000 + 4000000 * field firccfg 0 2, 1)
  | 6 => some (8000000 * (field spllcfg 16 5 + 16), (field spllcfg 8 3 + 1) * 2)
  | _ => none

/-- The frequency of the core, rounded down at both divisions. -/
def coreClock (csr sirccfg firccfg spllcfg : BitVec 32) : Option Nat :=
  (source csr sirccfg firccfg spllcfg).map fun (n, d) => n / d / (field csr 16 4 + 1)

/-- The frequency of the core, rounded down once: the largest whole number of Hz not more than the quotient. -/
def IsFloorClock (csr sirccfg firccfg spllcfg : BitVec 32) (f : Nat) : Prop :=
  ∃ n d, source csr sirccfg firccfg spllcfg = some (n, d) ∧
    f * (d * (field csr 16 4 + 1)) ≤ n ∧ n < (f + 1) * (d * (field csr 16 4 + 1))

end Uavcan.CoreClock.Spec
