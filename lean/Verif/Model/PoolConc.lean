import Verif.Model.Pool

/-!
# Model of `StaticMemoryPool` with several threads

`libuavcan/include/libuavcan/platform/memory.hpp`, lines 139–177. Each access to shared memory is one step:
the load of `free_list_` (147), the read of `previous->next` (156), the weak compare-exchange (157), the atomic
exchange (175, right-hand side) and the store to `reclaimed_block->next` (175, left-hand side). Threads are
interleaved in any order (sequential consistency; the code uses the default memory order).

Simplifications: of a block's bytes only the `ptrSize` bytes that hold the link are kept, as the number they
encode (`Model/Pool.lean` has the bytes); reading or writing them is one step. Requests larger than a block, which touch no
shared state (141, 159–165), are left out. `live` is not in the code: it records which blocks clients hold.
-/

namespace Uavcan.PoolConc
open Pool

/-- Where a thread is. Local variables of the calls are arguments. -/
inductive PC where
  /-- in no call -/
  | idle
  /-- in `allocate`, before 147 -/
  | aStart
  /-- in `allocate`, before 156, `previous = p ≠ nullptr` -/
  | aLoaded (p : Nat)
  /-- in `allocate`, before 157, `previous = p`, `next = n` -/
  | aNext (p n : Nat)
  /-- in `deallocate`, before the exchange of 175, `reclaimed_block = b` -/
  | dStart (b : Nat)
  /-- in `deallocate`, between the exchange and the store of 175, the exchange returned `old` -/
  | dLink (b old : Nat)
  deriving DecidableEq, Repr

/-- The pool (`free_list_`, 89, and the links inside the blocks, 52–75), the threads, and which blocks clients
hold. -/
structure CState where
  head : Nat
  link : Nat → Nat
  pc : Nat → PC
  live : List Nat

/-- The state after the constructor (91–107), before any thread calls. -/
def cinit (c : Cfg) (mem : Mem) : CState :=
  { head := (Pool.init c mem).head
    link := fun a => loadPtr c (Pool.init c mem).mem a
    pc := fun _ => .idle
    live := [] }

/-- One step of one thread. -/
inductive Action where
  /-- thread `t` calls `allocate` (139) -/
  | callAlloc (t : Nat)
  /-- 147–155 -/
  | load (t : Nat)
  /-- 156 -/
  | readNext (t : Nat)
  /-- 157; `spurious` if the weak compare-exchange fails although the values are equal -/
  | cas (t : Nat) (spurious : Bool)
  /-- thread `t` calls `deallocate(b)` (170) for a block some client holds -/
  | callFree (t b : Nat)
  /-- 175: `std::atomic_exchange(&free_list_, reclaimed_block)` -/
  | exchange (t : Nat)
  /-- 175: `reclaimed_block->next = …` -/
  | store (t : Nat)
  /-- a client overwrites (the first bytes of) a block it holds -/
  | clientWrite (b v : Nat)
  deriving DecidableEq, Repr

/-- Let thread `t` continue at `pc`. -/
def CState.goto (s : CState) (t : Nat) (p : PC) : CState :=
  { s with pc := fun i => if i = t then p else s.pc i }

/-- Effect of a step; `none` if the thread is not at that point (or the client does not hold the block). -/
def step (c : Cfg) (s : CState) : Action → Option (Outcome CState)
  | .callAlloc t =>
    match s.pc t with
    | .idle => some (.ok (s.goto t .aStart))
    | _ => none
  | .load t =>
    match s.pc t with
    | .aStart => some (.ok (if s.head = 0 then s.goto t .idle else s.goto t (.aLoaded s.head)))
    | _ => none
  | .readNext t =>
    match s.pc t with
    | .aLoaded p =>
      some (if c.isBlock p then .ok (s.goto t (.aNext p (s.link p))) else .ub .wildPointer)
    | _ => none
  | .cas t spurious =>
    match s.pc t with
    | .aNext p n =>
      some (.ok (if s.head = p ∧ spurious = false then
        { s.goto t .idle with head := n, live := p :: s.live }
      else s.goto t .aStart))
    | _ => none
  | .callFree t b =>
    match s.pc t with
    | .idle => if b ∈ s.live then some (.ok { s.goto t (.dStart b) with live := s.live.erase b }) else none
    | _ => none
  | .exchange t =>
    match s.pc t with
    | .dStart b => some (.ok { s.goto t (.dLink b s.head) with head := b })
    | _ => none
  | .store t =>
    match s.pc t with
    | .dLink b old =>
      some (if c.isBlock b then
        .ok { s.goto t .idle with link := fun a => if a = b then old else s.link a }
      else .ub .wildPointer)
    | _ => none
  | .clientWrite b v =>
    if b ∈ s.live then some (.ok { s with link := fun a => if a = b then v else s.link a }) else none

/-- Execute a given sequence of steps. -/
def runActions (c : Cfg) (s : CState) : List Action → Option (Outcome CState)
  | [] => some (.ok s)
  | a :: as =>
    match step c s a with
    | none => none
    | some (.ub u) => some (.ub u)
    | some (.ok s') => runActions c s' as

/-! ## What can be observed -/

/-- What a thread does at its interface (`call…`, `ret…`), and the moment at which its call takes effect on the
pool (`eff…`). -/
inductive Label where
  | callAlloc (t : Nat)
  | callFree (t b : Nat)
  /-- the call of `t` takes block `p` from the pool -/
  | effPop (t p : Nat)
  /-- the call of `t` finds the pool empty -/
  | effEmpty (t : Nat)
  /-- the call of `t` puts `b` back -/
  | effPush (t b : Nat)
  /-- `allocate` of `t` returns; `none` is null or an exception -/
  | retAlloc (t : Nat) (r : Option Nat)
  | retFree (t : Nat)
  deriving DecidableEq, Repr

/-- The labels of one step. -/
def labels (s : CState) : Action → List Label
  | .callAlloc t => [.callAlloc t]
  | .load t => if s.head = 0 then [.effEmpty t, .retAlloc t none] else []
  | .readNext _ => []
  | .cas t spurious =>
    match s.pc t with
    | .aNext p _ => if s.head = p ∧ spurious = false then [.effPop t p, .retAlloc t (some p)] else []
    | _ => []
  | .callFree t b => [.callFree t b]
  | .exchange t =>
    match s.pc t with
    | .dStart b => [.effPush t b]
    | _ => []
  | .store t => [.retFree t]
  | .clientWrite _ _ => []

/-- A finite interleaving in which every step is `allowed`, with its labels. -/
inductive Run (c : Cfg) (allowed : CState → Action → Prop) : CState → List Label → CState → Prop where
  | nil (s : CState) : Run c allowed s [] s
  | snoc {s s' s'' : CState} {ls : List Label} {a : Action} :
      Run c allowed s ls s' → allowed s' a → step c s' a = some (.ok s'') →
      Run c allowed s (ls ++ labels s' a) s''

end Uavcan.PoolConc
