import Verif.Model.PoolConc

/-!
# Model of `StaticMemoryPool` with several threads in the memory model of C++

`libuavcan/include/libuavcan/platform/memory.hpp`, lines 139–177, once more, with what happens before what. The
accesses to `free_list_` are atomic and sequentially consistent (the default, 147, 157, 175); those to `next` (156 and
the left-hand side of 175) are ordinary ones, as are those of clients to the blocks they hold. Two ordinary accesses to
one object, one of them a write, of which neither happens before the other are a data race, and the behaviour of the
program is undefined ([intro.multithread]/21 of C++11).

What happens before what is followed with vector clocks: every thread counts its steps and keeps, for every thread, the
number of steps of it that happen before the own next step. A step that reads `free_list_` synchronizes with the step
that wrote the value it reads, which is the last one that wrote it, as there is a single total order of all of them; as
all writes but the constructor's are read-modify-write operations, they hand on what they have learnt. Clients have means
of their own to synchronize (locks, queues, joining threads): `sync`.

Simplifications: those of `Model/PoolConc.lean`; of the bytes of a block only those that hold the link are looked at,
as one object; the constructor happens before everything (the initialization of a static variable, 133–137, is
synchronized by the compiler; not so with `-fno-threadsafe-statics`).
-/

namespace Uavcan.PoolRace
open Pool PoolConc

/-- An ordinary access to the link of a block. -/
structure Access where
  thread : Nat
  /-- the number of the step of the thread -/
  time : Nat
  write : Bool
  deriving DecidableEq, Repr

/-- The pool, and what happens before what. -/
structure RState where
  base : CState
  /-- `view t u`: how many steps of `u` happen before the next step of `t`; `view t t` is the number of steps of `t` -/
  view : Nat → Nat → Nat
  /-- the view of the thread that wrote `free_list_` last, when it did -/
  rel : Nat → Nat
  /-- the number of the last step of a thread inside of a call; not in the code -/
  called : Nat → Nat
  /-- the thread that may use a live block; not in the code -/
  owner : Nat → Nat
  /-- all accesses so far, by block -/
  acc : Nat → List Access

/-- The state after the constructor (91–107). -/
def rinit (c : Cfg) (mem : Mem) : RState :=
  { base := cinit c mem, view := fun _ _ => 0, rel := fun _ => 0, called := fun _ => 0, owner := fun _ => 0,
    acc := fun _ => [] }

/-- One step of one thread. -/
inductive RAction where
  /-- a step of `allocate` or `deallocate`, or a call of one of them -/
  | pool (a : Action)
  /-- thread `t` overwrites the first bytes of a block it owns -/
  | write (t b v : Nat)
  /-- thread `t` reads the first bytes of a block it owns -/
  | read (t b : Nat)
  /-- something `t` did so far is synchronized, by the client, with what `u` does from now on -/
  | sync (t u : Nat)
  /-- `t` hands a block to `u`, with synchronization -/
  | pass (t u b : Nat)
  deriving DecidableEq, Repr

/-- What comes of a step. -/
inductive Res where
  | ok (s : RState)
  /-- the access is part of a data race -/
  | race
  /-- a pointer outside of the pool is followed -/
  | wild

/-- Whether an access of `t` to the link of `b` conflicts with an earlier one that does not happen before it. -/
def RState.racy (s : RState) (t b : Nat) (write : Bool) : Bool :=
  (s.acc b).any fun x => (x.write || write) && decide (s.view t x.thread < x.time)

/-- Count a step of `t`. -/
def RState.tick (s : RState) (t : Nat) : RState :=
  { s with view := fun u w => if u = t ∧ w = t then s.view t t + 1 else s.view u w }

/-- `t` learns what is in `v`. -/
def RState.learn (s : RState) (t : Nat) (v : Nat → Nat) : RState :=
  { s with view := fun u w => if u = t then max (s.view t w) (v w) else s.view u w }

/-- `t` writes `free_list_`. -/
def RState.release (s : RState) (t : Nat) : RState := { s with rel := s.view t }

/-- Record an access of `t`. -/
def RState.access (s : RState) (t b : Nat) (write : Bool) : RState :=
  { s with acc := fun a => if a = b then ⟨t, s.view t t, write⟩ :: s.acc a else s.acc a }

/-- The last step of `t` inside of a call is this one. -/
def RState.inCall (s : RState) (t : Nat) : RState :=
  { s with called := fun u => if u = t then s.view t t else s.called u }

/-- The step of the pool itself. -/
def RState.lift (c : Cfg) (s : RState) (a : Action) : Option Res :=
  match PoolConc.step c s.base a with
  | none => none
  | some (.ub _) => some .wild
  | some (.ok b) => some (.ok { s with base := b })

/-- Effect of a step; `none` if it is not possible: the thread is not at that point, or the client does not own the
block. -/
def rstep (c : Cfg) (s : RState) : RAction → Option Res
  | .pool (.callAlloc t) => ((s.tick t).inCall t).lift c (.callAlloc t)
  | .pool (.load t) =>                                                          -- 147
    (((s.tick t).learn t s.rel).inCall t).lift c (.load t)
  | .pool (.readNext t) =>                                                      -- 156
    match s.base.pc t with
    | .aLoaded p =>
      if s.racy t p false then some .race
      else (((s.tick t).access t p false).inCall t).lift c (.readNext t)
    | _ => none
  | .pool (.cas t spurious) =>                                                  -- 157
    match s.base.pc t with
    | .aNext p _ =>
      let s' := ((s.tick t).learn t s.rel).inCall t
      if s.base.head = p ∧ spurious = false then
        ({ s'.release t with owner := fun b => if b = p then t else s.owner b }).lift c (.cas t spurious)
      else s'.lift c (.cas t spurious)
    | _ => none
  | .pool (.callFree t b) =>
    if s.owner b = t then ((s.tick t).inCall t).lift c (.callFree t b) else none
  | .pool (.exchange t) =>                                                      -- 175, right-hand side
    ((((s.tick t).learn t s.rel).inCall t).release t).lift c (.exchange t)
  | .pool (.store t) =>                                                         -- 175, left-hand side
    match s.base.pc t with
    | .dLink b _ =>
      if s.racy t b true then some .race
      else (((s.tick t).access t b true).inCall t).lift c (.store t)
    | _ => none
  | .pool (.clientWrite _ _) => none
  | .write t b v =>
    if b ∈ s.base.live ∧ s.owner b = t then
      if s.racy t b true then some .race
      else ((s.tick t).access t b true).lift c (.clientWrite b v)
    else none
  | .read t b =>
    if b ∈ s.base.live ∧ s.owner b = t then
      if s.racy t b false then some .race
      else some (.ok ((s.tick t).access t b false))
    else none
  | .sync t u => some (.ok (s.learn u (s.view t)))
  | .pass t u b =>
    if b ∈ s.base.live ∧ s.owner b = t then
      some (.ok { s.learn u (s.view t) with owner := fun a => if a = b then u else s.owner a })
    else none

/-- A finite interleaving in which every step is `allowed`, without data races so far. -/
inductive RRun (c : Cfg) (allowed : RState → RAction → Prop) : RState → RState → Prop where
  | nil (s : RState) : RRun c allowed s s
  | snoc {s s' s'' : RState} {a : RAction} :
      RRun c allowed s s' → allowed s' a → rstep c s' a = some (.ok s'') → RRun c allowed s s''

/-- Execute a given sequence of steps. -/
def runR (c : Cfg) (s : RState) : List RAction → Option Res
  | [] => some (.ok s)
  | a :: as =>
    match rstep c s a with
    | some (.ok s') => runR c s' as
    | r => r

end Uavcan.PoolRace
