import Verif.Model.PoolConc

/-!
# Model of the first use of a pool

`StaticMemoryPool::getReference` (`libuavcan/include/libuavcan/platform/memory.hpp`, lines 133–137) has a local static, which is
constructed when control passes it for the first time; `PoolAllocator`'s constructors call it (208, 222). Compilers keep a guard:

* with thread-safe statics (the default): a thread that finds the guard unset takes it and constructs; others wait until it is
  set (C++ ABI, `__cxa_guard_acquire`);
* with `-fno-threadsafe-statics` (cortex-m4-fpv4-sp-d16-nosys.cmake:73): a thread that finds the guard unset constructs and sets
  the guard afterwards; nobody waits.

The writes of the constructor (91–107) are single steps. Pool and clients are those of `Model/PoolConc.lean`, with its
simplifications.
-/

namespace Uavcan.PoolConc
open Pool

/-- The guard of the local static in 135. -/
inductive Guard where
  | unset
  /-- taken by a thread that constructs; only with thread-safe statics -/
  | busy
  | set
  deriving DecidableEq, Repr

/-- Where a thread is in `getReference`. -/
inductive RefPC where
  /-- in no call -/
  | out
  /-- before the guard is looked at -/
  | entered
  /-- in the constructor, after `k` of its writes -/
  | building (k : Nat)
  deriving DecidableEq, Repr

/-- A program with threads and a pool that is not yet constructed. `ready` and `built` are not in the code: whether some call of
`getReference` has returned, so that there is a reference to the pool; and how often the constructor was entered. -/
structure LState where
  guard : Guard
  ref : Nat → RefPC
  pool : CState
  ready : Bool
  built : Nat

/-- At the start of the program: static storage is zero. -/
def linit : LState :=
  { guard := .unset, ref := fun _ => .out, pool := { head := 0, link := fun _ => 0, pc := fun _ => .idle, live := [] },
    ready := false, built := 0 }

/-- The `k`th write of the constructor, 91–107: `storage_()` and `free_list_()` (92–93) count as one, then `free_list_` (95),
the link of the last block (100), and those of the other blocks from the last to the first (104). -/
def ctorWrite (c : Cfg) (p : CState) : Nat → CState
  | 0 => { p with head := 0, link := fun a => if c.isBlock a then 0 else p.link a }
  | 1 => { p with head := c.base }
  | k + 2 =>
    let i := c.numBlocks - 1 - k
    { p with link := fun a => if a = c.blockAddr i then (if k = 0 then 0 else c.blockAddr (i + 1)) else p.link a }

/-- One step of one thread. -/
inductive LAction where
  /-- `t` calls `getReference` -/
  | callRef (t : Nat)
  /-- `t` looks at the guard -/
  | check (t : Nat)
  /-- `t` goes on in the constructor, or sets the guard and returns -/
  | build (t : Nat)
  /-- a step of `Model/PoolConc.lean` -/
  | pool (a : Action)
  deriving DecidableEq, Repr

/-- The thread whose step it is. -/
def Action.thread : Action → Option Nat
  | .callAlloc t | .load t | .readNext t | .cas t _ | .callFree t _ | .exchange t | .store t => some t
  | .clientWrite _ _ => none

/-- Let thread `t` continue at `r`. -/
def LState.goto (s : LState) (t : Nat) (r : RefPC) : LState := { s with ref := fun i => if i = t then r else s.ref i }

/-- Effect of a step; `none` if the thread is not at that point, has to wait, or there is no reference to the pool yet. -/
def lstep (c : Cfg) (threadsafe : Bool) (s : LState) : LAction → Option (Outcome LState)
  | .callRef t => if s.ref t = .out ∧ s.pool.pc t = .idle then some (.ok (s.goto t .entered)) else none
  | .check t =>
    match s.ref t, s.guard with
    | .entered, .set => some (.ok { s.goto t .out with ready := true })
    | .entered, .unset =>
      some (.ok { s.goto t (.building 0) with guard := if threadsafe then .busy else .unset, built := s.built + 1 })
    | _, _ => none
  | .build t =>
    match s.ref t with
    | .building k =>
      some (.ok (if k < c.numBlocks + 2 then { s.goto t (.building (k + 1)) with pool := ctorWrite c s.pool k }
        else { s.goto t .out with guard := .set, ready := true }))
    | _ => none
  | .pool a =>
    if s.ready = true ∧ (∀ t ∈ a.thread, s.ref t = .out) then
      match step c s.pool a with
      | none => none
      | some (.ub u) => some (.ub u)
      | some (.ok p) => some (.ok { s with pool := p })
    else none

/-- The labels of one step. -/
def llabels (s : LState) : LAction → List Label
  | .pool a => labels s.pool a
  | _ => []

/-- A finite interleaving in which every step is `allowed`, with its labels. -/
inductive LRun (c : Cfg) (threadsafe : Bool) (allowed : LState → LAction → Prop) : LState → List Label → LState → Prop where
  | nil (s : LState) : LRun c threadsafe allowed s [] s
  | snoc {s s' s'' : LState} {ls : List Label} {a : LAction} :
      LRun c threadsafe allowed s ls s' → allowed s' a → lstep c threadsafe s' a = some (.ok s'') →
      LRun c threadsafe allowed s (ls ++ llabels s' a) s''

end Uavcan.PoolConc
