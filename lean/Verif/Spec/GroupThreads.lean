import Verif.Model.GroupThreads

/-!
# Specification: threads that share an interface group

What a thread would get if it were alone with the group (by the models of the single functions, `Model/SocketGroup`), what a data race is, and what it
means that threads keep apart.
-/

namespace Uavcan.Spec
open SocketCan Can Time GroupThreads

/-- A call for the group, all at once: the answer and the group afterwards. -/
def groupAnswer (abs : Nat → Int → Outcome Int) (g : Group) : Call → Outcome (Ans × Group)
  | .write k frames n out ans => do
    let r ← g.write k frames n out ans
    return (.wrote r.result r.written r.submitted, r.group)
  | .read k buf out ans => do
    let r ← g.read k buf out ans
    return (.got r.result r.out_frames r.read, r.group)
  | .reconfigureFilters fc num ans rounds =>
    match g.reconfigureFilters fc num ans rounds with
    | none => .ub .nonTermination
    | some o => do
      let r ← o
      return (.filtered r.1 r.2, g)
  | .select t ig ans => do
    let r ← g.select abs t ig ans
    return (.selected r.1 r.2, g)
  | .getStatistics k => .ok (.stats ((g.getInterface k).map (·.stats)), g)

/-- A thread that is alone with the group: the answers it gets, and the group afterwards. -/
def alone (abs : Nat → Int → Outcome Int) : Group → Client → List Ans → Outcome (List Ans × Group)
  | g, .stop, acc => .ok (acc, g)
  | g, .call c next, acc => do
    let r ← groupAnswer abs g c
    alone abs r.2 (next r.1) (acc ++ [r.1])

/-- The data members of the interface `k` are those of the model. -/
def MemHoldsAt (m : Mem) (k : Nat) (i : Iface) : Prop := m (.stats k) = i.stats ∧ ∀ j (h : j < FramesLen), m (.buf k j) = i.bufs[j]

/-- The data members are those of the model of the group. -/
def MemHolds (m : Mem) (g : Group) : Prop := ∀ k i, g.interfaces[k]? = some i → MemHoldsAt m k i

/-- The next access of a program: where, and whether it writes. -/
def nextAccess {α : Type} : Prog α → Option (Loc × Bool)
  | .done _ => none
  | .get l _ => some (l, false)
  | .put l _ _ => some (l, true)

/-- A data race: two threads are about to access the same location, at least one of them to write it. -/
def Race {α : Type} (ps : List (Prog α)) : Prop :=
  ∃ (t u : Nat) (p q : Prog α) (l : Loc) (a b : Bool), t ≠ u ∧ ps[t]? = some p ∧ ps[u]? = some q ∧ nextAccess p = some (l, a) ∧ nextAccess q = some (l, b) ∧ (a = true ∨ b = true)

/-- The interface a call is for. -/
def forInterface : Call → Option Nat
  | .write k _ _ _ _ => some k
  | .read k _ _ _ => some k
  | .getStatistics k => some k
  | .reconfigureFilters .. => none
  | .select .. => none

/-- The call is one of `select`. -/
def isSelect : Call → Bool
  | .select .. => true
  | _ => false

/-- All calls a thread may make, whatever the answers. -/
def AllCalls (P : Call → Prop) : Client → Prop
  | .stop => True
  | .call c next => P c ∧ ∀ a, AllCalls P (next a)

/-- Each interface is used by one thread at most, and one thread at most waits with `select`. -/
def KeepApart (cs : List Client) : Prop :=
  ∃ (owner : Nat → Nat) (waiter : Nat), ∀ (t : Nat) (c : Client), cs[t]? = some c →
    AllCalls (fun call => (∀ k, forInterface call = some k → owner k = t) ∧ (isSelect call = true → waiter = t)) c

/-- What a single call does to an interface of a group of `n`. -/
inductive CallKind where
  /-- nothing that matters to others -/
  | nothing
  /-- frames are given to the kernel -/
  | sends (k : Nat)
  /-- messages are received -/
  | receives (k : Nat)
  /-- there was nothing to receive -/
  | looks (k : Nat)
  /-- the statistics are copied -/
  | copies (k : Nat)
  | waits
  deriving DecidableEq

/-- The kind of a call. -/
def kindOf (n : Nat) : Call → CallKind
  | .write k _ len _ _ => if k < n ∧ len ≠ 0 then .sends k else .nothing
  | .read k _ _ ans => if k < n then if ans.res ≤ 0 then .looks k else .receives k else .nothing
  | .reconfigureFilters .. => .nothing
  | .select .. => .waits
  | .getStatistics k => if k < n then .copies k else .nothing

/-- Calls of these kinds disturb one another. -/
def Disturb : CallKind → CallKind → Prop
  | .sends k, .sends j => k = j
  | .sends k, .receives j => k = j
  | .receives k, .sends j => k = j
  | .receives k, .receives j => k = j
  | .receives k, .looks j => k = j
  | .looks k, .receives j => k = j
  | .receives k, .copies j => k = j
  | .copies k, .receives j => k = j
  | .waits, .waits => True
  | _, _ => False

end Uavcan.Spec
