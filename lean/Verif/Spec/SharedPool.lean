import Verif.Model.SharedPool
import Verif.Props.Containers

/-!
# Specification of several containers on one pool

Lists and finite maps, each for itself, and a number of blocks each takes. The only thing one container knows of another is how many blocks are left.
-/

namespace Uavcan.Stl
open Uavcan.Pool

/-- What a container is to its user: a list with a capacity, or a finite map with a number of buckets. -/
inductive Ideal where
  | vec (ty : VecTy) (l : List (List Byte)) (cap : Nat)
  | map (ty : MapTy) (kv : KV) (buckets : Nat) (array : Bool)
  | gone

/-- How many blocks it takes: one for all elements of a vector; one for each element of a map, and one for the buckets. -/
def Ideal.used : Ideal → Nat
  | .vec _ _ cap => if cap = 0 then 0 else 1
  | .map _ kv _ array => kv.length + array.toNat
  | .gone => 0

/-- How many they take together. -/
def usedAll (is : List Ideal) : Nat := (is.map Ideal.used).sum

/-- How many of `total` blocks the others leave to the `i`th. -/
def left (total : Nat) (is : List Ideal) (i : Nat) : Nat := total - usedAll (is.set i .gone)

/-- The call needs a new array for a vector, and there is no block. -/
def vecRefused (grow : Nat → Nat → Nat) (max free size cap : Nat) (op : VecOp) : Bool :=
  match newCapacity grow max size cap op with
  | some n => !decide (n = 0 ∨ (if cap = 0 then 0 else 1) < free)
  | none => false

/-- A call on a map, when `free` blocks are left. -/
def mapIdeal (c : Cfg) (ty : MapTy) (free : Nat) (kv : KV) (b : Nat) (array : Bool) (op : MapOp) : Outcome (Answer × Ideal) :=
  if makesNew kv op = true ∧ ¬ Fits (granted c) ty free kv.length b array then
    if c.exceptions then .ok (.badAlloc, .map ty kv b array) else .ub .nullDeref
  else if makesNew kv op = true ∧ ¬ Fits (roomy c) ty free kv.length b array then .ub .outOfBounds
  else
    let grown := if makesNew kv op then ty.rehash b kv.length else none
    .ok ((idealMapStep ty.sizeV kv op).1, .map ty (idealMapStep ty.sizeV kv op).2 (grown.getD b) (array || grown.isSome))

/-- A call on a vector. Without exceptions a call that needs a block and gets none is not allowed. -/
def vecIdeal (c : Cfg) (ty : VecTy) (free : Nat) (l : List (List Byte)) (cap : Nat) (op : VecOp) : Outcome (Answer × Ideal) :=
  if vecRefused ty.grow c.blockSize free l.length cap op = true ∧ c.exceptions = false then .ub .nullDeref
  else scarceVecStep ty.grow c.blockSize free l cap op >>= fun r => .ok (r.1, .vec ty r.2.1 r.2.2)

/-- A call of the program. -/
def idealStep (c : Cfg) (total : Nat) (is : List Ideal) : Call → Outcome (Answer × List Ideal)
  | .newVec ty => .ok (.done, is ++ [.vec ty [] 0])
  | .newMap ty => .ok (.done, is ++ [.map ty [] 1 false])
  | .vec i op => match is[i]? with
    | some (.vec ty l cap) => vecIdeal c ty (left total is i) l cap op >>= fun r => .ok (r.1, is.set i r.2)
    | _ => .ok (.missing, is)
  | .map i op => match is[i]? with
    | some (.map ty kv b array) => mapIdeal c ty (left total is i) kv b array op >>= fun r => .ok (r.1, is.set i r.2)
    | _ => .ok (.missing, is)
  | .destroy i => match is[i]? with
    | some (.vec _ _ _) => .ok (.done, is.set i .gone)
    | some (.map _ _ _ _) => .ok (.done, is.set i .gone)
    | _ => .ok (.missing, is)

/-- The program. -/
def idealRun (c : Cfg) (total : Nat) (is : List Ideal) : List Call → Outcome (List Answer × List Ideal)
  | [] => .ok ([], is)
  | call :: calls => do
    let (a, is) ← idealStep c total is call
    let (as, is) ← idealRun c total is calls
    return (a :: as, is)

/-- What the container holds, to a reader of memory. -/
def Box.holds (c : Cfg) (s : State) : Box → Ideal → Prop
  | .vec ty v, .vec ty' l cap => ty = ty' ∧ v.elements ty.sizeT s = l ∧ v.cap = cap
  | .map ty m, .map ty' kv b array => ty = ty' ∧ m.contents c ty s.mem = kv ∧ m.bucketCount = b ∧ m.hasArray = array
  | .gone, .gone => True
  | _, _ => False

/-- Element types: `BlockSize` elements of a vector fit into a block (C87), and so does a node of a map; the library's vectors grow. -/
def Call.TypeOk (c : Cfg) : Call → Prop
  | .newVec ty => c.blockSize * ty.sizeT ≤ c.sizeofBlock ∧ GrowOK ty.grow
  | .newMap ty => c.ptrSize + ty.sizeK + ty.sizeV ≤ c.sizeofBlock
  | _ => True

/-- What is given to a container has the size of its elements. -/
def Call.Typed (is : List Ideal) : Call → Prop
  | .vec i op => ∀ ty l cap, is[i]? = some (.vec ty l cap) → VecTyped ty.sizeT op
  | .map i op => ∀ ty kv b array, is[i]? = some (.map ty kv b array) → MapTyped ty op
  | _ => True

/-- All of it, along the program. -/
def ProgramOk (c : Cfg) (total : Nat) (is : List Ideal) : List Call → Prop
  | [] => True
  | call :: calls => call.TypeOk c ∧ call.Typed is ∧ ∀ a is', idealStep c total is call = .ok (a, is') → ProgramOk c total is' calls

end Uavcan.Stl
