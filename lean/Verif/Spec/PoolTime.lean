import Verif.Model.PoolConc

/-!
# Specification: how long a call to the pool takes

Time is counted in accesses to shared memory by the calling thread.
-/

namespace Uavcan.Spec
open Pool PoolConc

/-- The step is an access to shared memory by a call of thread `t`. -/
def ownStep (t : Nat) : Action → Nat
  | .load t' | .readNext t' | .cas t' _ | .exchange t' | .store t' => if t' = t then 1 else 0
  | _ => 0

/-- The step begins a call of thread `t`. -/
def begins (t : Nat) : Action → Prop
  | .callAlloc t' | .callFree t' _ => t' = t
  | _ => False

/-- The step is a compare-exchange of `t` that may fail although nothing has changed. -/
def spuriousStep (t : Nat) : Action → Nat
  | .cas t' true => if t' = t then 1 else 0
  | _ => 0

/-- Part of a run in which thread `t` begins no call, hence part of at most one call of `t`: `own` accesses by that call, labels `ls`
(of all threads), `spur` spurious failures. -/
inductive During (c : Cfg) (allowed : CState → Action → Prop) (t : Nat) : CState → Nat → List Label → Nat → CState → Prop where
  | nil (s : CState) : During c allowed t s 0 [] 0 s
  | snoc {s s' s'' : CState} {own spur : Nat} {ls : List Label} {a : Action} :
      During c allowed t s own ls spur s' → allowed s' a → ¬ begins t a → step c s' a = some (.ok s'') →
      During c allowed t s (own + ownStep t a) (ls ++ labels s' a) (spur + spuriousStep t a) s''

/-- A block is taken or put back by thread `t`. -/
def effectOf (t : Nat) : Label → Bool
  | .effPop t' _ | .effPush t' _ => t' == t
  | _ => false

/-- A block is taken or put back by another thread than `t`. -/
def effectOfOther (t : Nat) : Label → Bool
  | .effPop t' _ | .effPush t' _ => t' != t
  | _ => false

/-- Thread `t` calls. -/
def callOf (t : Nat) : Label → Bool
  | .callAlloc t' | .callFree t' _ => t' == t
  | _ => false

end Uavcan.Spec
