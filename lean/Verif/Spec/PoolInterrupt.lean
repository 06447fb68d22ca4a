import Verif.Model.PoolInterrupt

/-! Specification for C118: which code may share a pool with the interrupt handlers that interrupt it. -/

namespace Uavcan.PoolConc

/-- A level may be interrupted if it switches interrupts off around its calls, if it makes no calls, if no level above it allocates, or if
neither it nor any level above it gives blocks back. -/
def MayBeInterrupted (u : Nat → Level) (t : Nat) : Prop :=
  (u t).masks = true ∨ ((u t).allocates = false ∧ (u t).frees = false) ∨ (∀ t', t < t' → (u t').allocates = false) ∨
    ((u t).frees = false ∧ ∀ t', t < t' → (u t').frees = false)

/-- Every level may be interrupted. -/
def SafeUsage (u : Nat → Level) : Prop := ∀ t, MayBeInterrupted u t

end Uavcan.PoolConc
