import Verif.Model.PoolConc

/-!
# The pool and interrupt handlers

On the targets the library is meant for ("embedded systems", README.md:12), a pool (`libuavcan/include/libuavcan/platform/memory.hpp`, lines
42–177) is shared not by threads but by the main program and interrupt handlers. That is a concurrent program with fewer interleavings:
a handler runs to its end before what it interrupted goes on.

Level 0 is the main program, levels from 1 on are the interrupt priorities; a higher level interrupts a lower one between any two accesses
to memory. Handlers of one priority do not interrupt each other, so they are one level. A level may switch interrupts off around each of
its calls.

Simplification: when interrupts come is arbitrary; a handler that makes several calls may be regarded as several interrupts.
-/

namespace Uavcan.PoolConc
open Pool

/-- What the code that runs at one level does with the pool: whether it calls `allocate` (memory.hpp:139), whether it calls `deallocate`
(170), and whether it switches interrupts off around its calls. -/
structure Level where
  allocates : Bool
  frees : Bool
  masks : Bool
  deriving DecidableEq, Repr

/-- Level `t` can run: no higher one does, and none has interrupts switched off in the middle of a call (139–177). -/
def CanRun (u : Nat → Level) (s : CState) (t : Nat) : Prop :=
  (∀ t', t < t' → s.pc t' = .idle) ∧ ∀ t', t' < t → (u t').masks = true → s.pc t' = .idle

/-- The steps that are possible with interrupts instead of threads (steps as in `Action`, memory.hpp:139–177). -/
def Interrupts (u : Nat → Level) (s : CState) : Action → Prop
  | .callAlloc t => (u t).allocates = true ∧ CanRun u s t
  | .callFree t _ => (u t).frees = true ∧ CanRun u s t
  | .load t | .readNext t | .cas t _ | .exchange t | .store t => CanRun u s t
  | .clientWrite _ _ => True

/-- The same for threads, which need not wait for each other (steps as in `Action`, memory.hpp:139–177). -/
def Threads (u : Nat → Level) : CState → Action → Prop
  | _, .callAlloc t => (u t).allocates = true
  | _, .callFree t _ => (u t).frees = true
  | _, _ => True

end Uavcan.PoolConc
