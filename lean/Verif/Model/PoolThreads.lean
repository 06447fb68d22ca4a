import Verif.Model.Pool

/-!
# Model of threads that share a pool

`libuavcan/include/libuavcan/platform/memory.hpp`, 139–177: programs in several threads that call `allocate` and `deallocate` of one pool and read and
write memory. The calls to the pool are made one at a time, as under a lock (that this is needed is C25); reads and writes of single bytes are atomic and
interleaved in any way. Memory is not protected: a program can read and write any address.

Simplified away: everything a thread does without memory of the pool; it is in the choice of the next step, which may depend in any way on what was read.
-/

namespace Uavcan.Pool

/-- A program: what it does next, depending on the answers it gets. -/
inductive Prog where
  /-- it has ended, with an answer -/
  | done (answer : Nat)
  /-- `allocate(size)`, memory.hpp:139–168 -/
  | allocate (size : Nat) (next : Result → Prog)
  /-- `deallocate(ptr)`, memory.hpp:170–177 -/
  | deallocate (ptr : Nat) (next : Prog)
  /-- a byte is read -/
  | read (addr : Nat) (next : Byte → Prog)
  /-- a byte is written -/
  | write (addr : Nat) (v : Byte) (next : Prog)

/-- One step of a program with the functions of memory.hpp:139–177; `k` is the number of spurious failures of the compare-exchange (157). -/
def Prog.step (c : Cfg) (s : State) (k : Nat) : Prog → Outcome (State × Prog)
  | .done answer => .ok (s, .done answer)
  | .allocate size next => do
    let (r, s') ← Pool.allocate c s size k
    return (s', next r)
  | .deallocate ptr next => do
    let (_, s') ← Pool.deallocate c s ptr
    return (s', next)
  | .read addr next => .ok (s, next (s.mem addr))
  | .write addr v next => .ok ({ s with mem := fun x => if x = addr then v else s.mem x }, next)

/-- The threads take steps in the order of the schedule (thread, number of spurious failures) with the functions of memory.hpp:139–177; a thread that does not
exist takes none. -/
def threads (c : Cfg) (s : State) (ps : List Prog) : List (Nat × Nat) → Outcome (State × List Prog)
  | [] => .ok (s, ps)
  | (t, k) :: sched =>
    match ps[t]? with
    | none => threads c s ps sched
    | some p => do
      let (s', p') ← p.step c s k
      threads c s' (ps.set t p') sched

end Uavcan.Pool
