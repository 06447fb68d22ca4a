import Verif.Model.Containers

/-!
# Several containers on one pool

All `PoolAllocator`s with the same block count and block size serve from one `StaticMemoryPool` (`libuavcan/include/libuavcan/platform/memory.hpp`, 206–225),
so vectors and maps of any element types share it (as the tests of libuavcan_validation_suite/include/lvs/platform/memory.hpp, 170–306, in this file "lvs", do one after the other).
The calls on the single containers are those of `Verif.Model.Containers`.

Simplification: one thread; a program names its containers by the order in which it makes them, and a name of a container that is not there, or that is of the other kind, which
no program could be compiled with, does nothing.
-/

namespace Uavcan.Stl
open Uavcan.Pool

/-- A container of the program: a vector (lvs 217, 233, 245), a map (lvs 296), or one that was destroyed (lvs 226, 303). -/
inductive Box where
  | vec (ty : VecTy) (v : Vec)
  | map (ty : MapTy) (m : Map)
  | gone

/-- What a program does. -/
inductive Call where
  /-- `std::vector<…> v;` (lvs 217) -/
  | newVec (ty : VecTy)
  /-- `std::unordered_map<…> m;` (lvs 296) -/
  | newMap (ty : MapTy)
  /-- a call on the `i`th container, a vector (lvs 218–225) -/
  | vec (i : Nat) (op : VecOp)
  /-- a call on the `i`th container, a map (lvs 297–302) -/
  | map (i : Nat) (op : MapOp)
  /-- the end of the `i`th container's life (lvs 226, 303) -/
  | destroy (i : Nat)

/-- The effect of a call (lvs 215–226, 294–303), with the one pool of memory.hpp 206–225. -/
def callStep (c : Cfg) (s : State) (bs : List Box) : Call → Outcome (Answer × State × List Box)
  | .newVec ty => .ok (.done, s, bs ++ [.vec ty Vec.empty])
  | .newMap ty => .ok (.done, s, bs ++ [.map ty Map.empty])
  | .vec i op => match bs[i]? with
    | some (.vec ty v) => do
      let (a, s, v) ← vecStep c ty s v op
      return (a, s, bs.set i (.vec ty v))
    | _ => .ok (.missing, s, bs)
  | .map i op => match bs[i]? with
    | some (.map ty m) => do
      let (a, s, m) ← mapStep c ty s m op
      return (a, s, bs.set i (.map ty m))
    | _ => .ok (.missing, s, bs)
  | .destroy i => match bs[i]? with
    | some (.vec _ v) => do
      let s ← vecDestroy c s v
      return (.done, s, bs.set i .gone)
    | some (.map _ m) => do
      let s ← mapDestroy c s m
      return (.done, s, bs.set i .gone)
    | _ => .ok (.missing, s, bs)

/-- A program (as lvs 215–303 is one). -/
def callRun (c : Cfg) (s : State) (bs : List Box) : List Call → Outcome (List Answer × State × List Box)
  | [] => .ok ([], s, bs)
  | call :: calls => do
    let (a, s, bs) ← callStep c s bs call
    let (as, s, bs) ← callRun c s bs calls
    return (a :: as, s, bs)

end Uavcan.Stl
