import Verif.Lemmas.SharedPool

/-!
# C122: containers on one pool
-/

namespace Uavcan.Stl
open Uavcan.Pool

/-- C122: whatever vectors and maps share a pool with other users, and however the calls on them are interleaved, every call is answered as the specification says, in which each container is a
list or a finite map of its own and knows of the others only how many blocks are left; in memory each holds what the specification says; the other users' blocks keep every byte;
and exactly as many blocks are handed out as the containers need, so none when all of them are destroyed. Where the specification is undefined, so is the program (with exceptions;
without them a call that would need a block when there is none is undefined in the specification, and the theorem says nothing about what comes of it). -/
theorem C122_independent {c : Cfg} (hc : c.WF) {s : State} {live : List Nat} (h : History c s live) (calls : List Call)
    (hok : ProgramOk c (c.numBlocks - live.length) [] calls) :
    match idealRun c (c.numBlocks - live.length) [] calls with
    | .ub u => c.exceptions = true → callRun c s [] calls = .ub u
    | .ok (as, is) => ∃ s' bs, callRun c s [] calls = .ok (as, s', bs) ∧ bs.length = is.length ∧
        (∀ (i : Nat) b a, bs[i]? = some b → is[i]? = some a → b.holds c s' a) ∧ Frame c live s.mem s'.mem ∧
        ∃ L, L.length = usedAll is ∧ Own c s' (L ++ live) := by
  have h0 : SysInv c live s.mem s [] [] := ⟨Own.of_history h, fun _ _ _ _ _ => rfl, rfl, by intro i b a hb; simp at hb⟩
  have := h0.run hc calls hok
  cases e : idealRun c (c.numBlocks - live.length) [] calls with
  | ub u => rw [e] at this; exact this
  | ok r =>
    obtain ⟨as, is⟩ := r
    rw [e] at this
    obtain ⟨s', bs, e1, e2⟩ := this
    exact ⟨s', bs, e1, e2.len, fun i b a hb ha => (e2.good i b a hb ha).holds, e2.frame, blocksOf bs, blocksOf_length e2.len e2.good, e2.own⟩

/-! ## Each as if it were alone -/

/-- The calls on the `i`th container, a vector. -/
def vecOps (i : Nat) : List Call → List VecOp
  | [] => []
  | .vec j op :: calls => if j = i then op :: vecOps i calls else vecOps i calls
  | _ :: calls => vecOps i calls

/-- The answers to them. -/
def vecAnswers (i : Nat) : List Call → List Answer → List Answer
  | .vec j _ :: calls, a :: as => if j = i then a :: vecAnswers i calls as else vecAnswers i calls as
  | _ :: calls, _ :: as => vecAnswers i calls as
  | _, _ => []

/-- The same for a map. -/
def mapOps (i : Nat) : List Call → List MapOp
  | [] => []
  | .map j op :: calls => if j = i then op :: mapOps i calls else mapOps i calls
  | _ :: calls => mapOps i calls

def mapAnswers (i : Nat) : List Call → List Answer → List Answer
  | .map j _ :: calls, a :: as => if j = i then a :: mapAnswers i calls as else mapAnswers i calls as
  | _ :: calls, _ :: as => mapAnswers i calls as
  | _, _ => []

/-- The container lives until the end. -/
def Kept (i : Nat) (calls : List Call) : Prop := ∀ call ∈ calls, ∀ j, call = .destroy j → j ≠ i

theorem idealRun_cons {c : Cfg} {total : Nat} {is : List Ideal} {call : Call} {calls : List Call} {as : List Answer} {is' : List Ideal}
    (h : idealRun c total is (call :: calls) = .ok (as, is')) :
    ∃ a is1 as', idealStep c total is call = .ok (a, is1) ∧ idealRun c total is1 calls = .ok (as', is') ∧ as = a :: as' := by
  simp only [idealRun] at h
  cases e : idealStep c total is call with
  | ub u => rw [e] at h; exact nomatch h
  | ok r =>
    obtain ⟨a, is1⟩ := r
    rw [e] at h
    simp only [Outcome.ok_bind] at h
    cases e1 : idealRun c total is1 calls with
    | ub u => rw [e1] at h; exact nomatch h
    | ok r =>
      obtain ⟨as', is2⟩ := r
      rw [e1] at h
      cases h
      exact ⟨a, is1, as', rfl, e1, rfl⟩

/-- A call on another container leaves this one as it is. -/
theorem idealStep_other {c : Cfg} {total : Nat} {is is' : List Ideal} {call : Call} {a : Answer} {i : Nat} {x : Ideal}
    (h : idealStep c total is call = .ok (a, is')) (hi : is[i]? = some x)
    (hne : match call with | .vec j _ => j ≠ i | .map j _ => j ≠ i | .destroy j => j ≠ i | _ => True) : is'[i]? = some x := by
  have hlt : i < is.length := (List.getElem?_eq_some_iff.1 hi).1
  cases call with
  | newVec ty => cases h; rw [List.getElem?_append_left hlt]; exact hi
  | newMap ty => cases h; rw [List.getElem?_append_left hlt]; exact hi
  | vec j op =>
    simp only [idealStep] at h
    split at h
    · next ty l cap hj =>
      cases e : vecIdeal c ty (left total is j) l cap op with
      | ub u => rw [e] at h; exact nomatch h
      | ok r => rw [e] at h; cases h; rw [List.getElem?_set, if_neg hne]; exact hi
    · cases h; exact hi
  | map j op =>
    simp only [idealStep] at h
    split at h
    · next ty kv b array hj =>
      cases e : mapIdeal c ty (left total is j) kv b array op with
      | ub u => rw [e] at h; exact nomatch h
      | ok r => rw [e] at h; cases h; rw [List.getElem?_set, if_neg hne]; exact hi
    · cases h; exact hi
  | destroy j =>
    simp only [idealStep] at h
    split at h
    · cases h; rw [List.getElem?_set, if_neg hne]; exact hi
    · cases h; rw [List.getElem?_set, if_neg hne]; exact hi
    · cases h; exact hi

/-- A call on a vector that is not refused is answered like one on a list. -/
theorem vecIdeal_alone {c : Cfg} {ty : VecTy} {free : Nat} {l : List (List Byte)} {cap : Nat} {op : VecOp} {a : Answer} {x : Ideal}
    (h : vecIdeal c ty free l cap op = .ok (a, x)) (ha : a ≠ .badAlloc) :
    ∃ l' cap', x = .vec ty l' cap' ∧ idealVecStep c.blockSize l op = .ok (a, l') := by
  simp only [vecIdeal] at h
  split at h
  · exact nomatch h
  · have fin : ∀ n, ((idealVecStep c.blockSize l op >>= fun r => Outcome.ok (r.1, r.2, n)) >>= fun r => Outcome.ok (r.1, Ideal.vec ty r.2.1 r.2.2)) = .ok (a, x) →
        ∃ l' cap', x = .vec ty l' cap' ∧ idealVecStep c.blockSize l op = .ok (a, l') := fun n h => by
      cases e : idealVecStep c.blockSize l op with
      | ub u => rw [e] at h; exact nomatch h
      | ok r => rw [e] at h; cases h; exact ⟨_, _, rfl, rfl⟩
    simp only [scarceVecStep] at h
    cases hn : newCapacity ty.grow c.blockSize l.length cap op with
    | none => rw [hn] at h; exact fin cap h
    | some n =>
      rw [hn] at h
      simp only at h
      by_cases hf : n = 0 ∨ (if cap = 0 then 0 else 1) < free
      · rw [if_pos hf] at h; exact fin n h
      · rw [if_neg hf] at h
        cases op with
        | shrinkToFit b k => cases h; exact ⟨_, _, rfl, rfl⟩
        | pushBack e k => cases h; exact absurd rfl ha
        | reserve m k => cases h; exact absurd rfl ha
        | popBack => cases h; exact absurd rfl ha
        | clear => cases h; exact absurd rfl ha
        | get k => cases h; exact absurd rfl ha

/-- C122: a vector among other containers answers the calls on it as a list would that is alone in the world, whatever is done with the others in between, as long as no call on it is refused. -/
theorem C122_vector_alone {c : Cfg} {total : Nat} (i : Nat) (calls : List Call) : ∀ {is is' : List Ideal} {as : List Answer} {ty : VecTy} {l : List (List Byte)} {cap : Nat},
    idealRun c total is calls = .ok (as, is') → is[i]? = some (.vec ty l cap) → Kept i calls → .badAlloc ∉ vecAnswers i calls as →
    ∃ l' cap', is'[i]? = some (.vec ty l' cap') ∧ idealVecRun c.blockSize l (vecOps i calls) = .ok (vecAnswers i calls as, l') := by
  induction calls with
  | nil =>
    intro is is' as ty l cap h hi _ _
    cases h
    exact ⟨l, cap, hi, rfl⟩
  | cons call calls ih =>
    intro is is' as ty l cap h hi hk hb
    obtain ⟨a, is1, as', e1, e2, rfl⟩ := idealRun_cons h
    have hk' : Kept i calls := fun x hx => hk x (by simp [hx])
    cases call with
    | vec j op =>
      by_cases hj : j = i
      · subst hj
        simp only [vecAnswers, if_true, List.mem_cons, not_or] at hb
        simp only [idealStep, hi] at e1
        cases e3 : vecIdeal c ty (left total is j) l cap op with
        | ub u => rw [e3] at e1; exact nomatch e1
        | ok r =>
          obtain ⟨a', x⟩ := r
          rw [e3] at e1
          cases e1
          obtain ⟨l', cap', rfl, e4⟩ := vecIdeal_alone e3 (fun e => hb.1 e.symm)
          have hlt : j < is.length := (List.getElem?_eq_some_iff.1 hi).1
          obtain ⟨l'', cap'', e5, e6⟩ := ih e2 (List.getElem?_set_self hlt) hk' hb.2
          refine ⟨l'', cap'', e5, ?_⟩
          simp only [vecOps, vecAnswers, if_true, idealVecRun, e4, Outcome.ok_bind, e6]
          rfl
      · simp only [vecAnswers, if_neg hj] at hb
        simp only [vecOps, vecAnswers, if_neg hj]
        exact ih e2 (idealStep_other e1 hi hj) hk' hb
    | map j op =>
      by_cases hj : j = i
      · subst hj
        simp only [idealStep, hi] at e1
        cases e1
        exact ih e2 hi hk' hb
      · exact ih e2 (idealStep_other e1 hi hj) hk' hb
    | newVec ty => exact ih e2 (idealStep_other e1 hi trivial) hk' hb
    | newMap ty => exact ih e2 (idealStep_other e1 hi trivial) hk' hb
    | destroy j => exact ih e2 (idealStep_other e1 hi (hk _ (by simp) j rfl)) hk' hb

/-- A call on a map that is not refused is answered like one on a finite map. -/
theorem mapIdeal_alone {c : Cfg} {ty : MapTy} {free : Nat} {kv : KV} {b : Nat} {array : Bool} {op : MapOp} {a : Answer} {x : Ideal}
    (h : mapIdeal c ty free kv b array op = .ok (a, x)) (ha : a ≠ .badAlloc) :
    ∃ b' array', x = .map ty (idealMapStep ty.sizeV kv op).2 b' array' ∧ a = (idealMapStep ty.sizeV kv op).1 := by
  simp only [mapIdeal] at h
  split at h
  · split at h
    · cases h; exact absurd rfl ha
    · exact nomatch h
  · split at h
    · exact nomatch h
    · cases h; exact ⟨_, _, rfl, rfl⟩

/-- C122: the same for a map. -/
theorem C122_map_alone {c : Cfg} {total : Nat} (i : Nat) (calls : List Call) : ∀ {is is' : List Ideal} {as : List Answer} {ty : MapTy} {kv : KV} {b : Nat} {array : Bool},
    idealRun c total is calls = .ok (as, is') → is[i]? = some (.map ty kv b array) → Kept i calls → .badAlloc ∉ mapAnswers i calls as →
    ∃ b' array', is'[i]? = some (.map ty (idealMapRun ty.sizeV kv (mapOps i calls)).2 b' array') ∧
      mapAnswers i calls as = (idealMapRun ty.sizeV kv (mapOps i calls)).1 := by
  induction calls with
  | nil =>
    intro is is' as ty kv b array h hi _ _
    cases h
    exact ⟨b, array, hi, rfl⟩
  | cons call calls ih =>
    intro is is' as ty kv b array h hi hk hb
    obtain ⟨a, is1, as', e1, e2, rfl⟩ := idealRun_cons h
    have hk' : Kept i calls := fun x hx => hk x (by simp [hx])
    cases call with
    | map j op =>
      by_cases hj : j = i
      · subst hj
        simp only [mapAnswers, if_true, List.mem_cons, not_or] at hb
        simp only [idealStep, hi] at e1
        cases e3 : mapIdeal c ty (left total is j) kv b array op with
        | ub u => rw [e3] at e1; exact nomatch e1
        | ok r =>
          obtain ⟨a', x⟩ := r
          rw [e3] at e1
          cases e1
          obtain ⟨b', array', rfl, rfl⟩ := mapIdeal_alone e3 (fun e => hb.1 e.symm)
          have hlt : j < is.length := (List.getElem?_eq_some_iff.1 hi).1
          obtain ⟨b'', array'', e5, e6⟩ := ih e2 (List.getElem?_set_self hlt) hk' hb.2
          refine ⟨b'', array'', ?_, ?_⟩
          · simp only [mapOps, if_true, idealMapRun]; exact e5
          · simp only [mapOps, mapAnswers, if_true, idealMapRun]; rw [e6]
      · simp only [mapAnswers, if_neg hj] at hb
        simp only [mapOps, mapAnswers, if_neg hj]
        exact ih e2 (idealStep_other e1 hi hj) hk' hb
    | vec j op =>
      by_cases hj : j = i
      · subst hj
        simp only [idealStep, hi] at e1
        cases e1
        exact ih e2 hi hk' hb
      · exact ih e2 (idealStep_other e1 hi hj) hk' hb
    | newVec ty => exact ih e2 (idealStep_other e1 hi trivial) hk' hb
    | newMap ty => exact ih e2 (idealStep_other e1 hi trivial) hk' hb
    | destroy j => exact ih e2 (idealStep_other e1 hi (hk _ (by simp) j rfl)) hk' hb

/-! ## How many blocks are enough -/

/-- It is a vector. -/
def Ideal.isVec : Ideal → Bool
  | .vec _ _ _ => true
  | _ => false

/-- It was destroyed. -/
def Ideal.isGone : Ideal → Bool
  | .gone => true
  | _ => false

/-- The program makes and uses vectors only. -/
def VectorsOnly (calls : List Call) : Prop := ∀ call ∈ calls, match call with | .newMap _ => False | .map _ _ => False | _ => True

/-- At no time more than `n` of them live. -/
def AtMost (c : Cfg) (total n : Nat) (is : List Ideal) : List Call → Prop
  | [] => is.countP (fun a => !a.isGone) ≤ n
  | call :: calls => is.countP (fun a => !a.isGone) ≤ n ∧ ∀ a is', idealStep c total is call = .ok (a, is') → AtMost c total n is' calls

theorem AtMost.now {c : Cfg} {total n : Nat} {is : List Ideal} {calls : List Call} (h : AtMost c total n is calls) : is.countP (fun a => !a.isGone) ≤ n := by
  cases calls with
  | nil => exact h
  | cons => exact h.1

/-- The others take one block each. -/
theorem usedAll_vectors {is : List Ideal} (hv : ∀ a ∈ is, a.isVec = true ∨ a.isGone = true) : usedAll is ≤ is.countP (fun a => !a.isGone) := by
  induction is with
  | nil => exact Nat.le_refl _
  | cons a is ih =>
    have h1 := ih fun x hx => hv x (by simp [hx])
    simp only [usedAll, List.map_cons, List.sum_cons, List.countP_cons] at h1 ⊢
    cases a with
    | vec ty l cap =>
      have h2 : (Ideal.vec ty l cap).used ≤ 1 := by simp only [Ideal.used]; split <;> omega
      have h3 : (Ideal.vec ty l cap).isGone = false := rfl
      simp only [h3, Bool.not_false, if_true]; omega
    | map => have := hv _ (List.mem_cons_self ..); simp [Ideal.isVec, Ideal.isGone] at this
    | gone =>
      have h2 : Ideal.gone.used = 0 := rfl
      omega

theorem countP_set_gone {is : List Ideal} : ∀ {i : Nat} {x : Ideal}, is[i]? = some x → x.isGone = false →
    (is.set i .gone).countP (fun a => !a.isGone) + 1 = is.countP (fun a => !a.isGone) := by
  induction is with
  | nil => intro i x h; simp at h
  | cons a is ih =>
    intro i x h hx
    cases i with
    | zero =>
      simp only [List.getElem?_cons_zero, Option.some.injEq] at h
      subst h
      have hg : Ideal.gone.isGone = true := rfl
      simp [hx, hg]
    | succ i =>
      simp only [List.getElem?_cons_succ] at h
      have := ih h hx
      simp only [List.set_cons_succ, List.countP_cons]
      omega

theorem idealVecStep_no_badAlloc {max : Nat} {l l' : List (List Byte)} {op : VecOp} {a : Answer} (h : idealVecStep max l op = .ok (a, l')) : a ≠ .badAlloc := by
  cases op <;> simp only [idealVecStep] at h
  · split at h <;> cases h <;> simp
  · split at h <;> cases h <;> simp
  · cases h; simp
  · split at h
    · exact nomatch h
    · cases h; simp
  · cases h; simp
  · split at h
    · cases h; simp
    · exact nomatch h

/-- C122: the exact condition under which a call on a vector is refused: it has to move to a new array, and with the one it has there are no more blocks than it and the others hold. -/
theorem C122_vector_refused_iff {c : Cfg} {ty : VecTy} {free : Nat} {l : List (List Byte)} {cap : Nat} {op : VecOp} (hx : c.exceptions = true)
    (hs : ∀ b k, op ≠ .shrinkToFit b k) :
    (∃ x, vecIdeal c ty free l cap op = .ok (.badAlloc, x)) ↔
      ∃ n, newCapacity ty.grow c.blockSize l.length cap op = some n ∧ n ≠ 0 ∧ free ≤ (if cap = 0 then 0 else 1) := by
  constructor
  · rintro ⟨x, h⟩
    by_cases hr : vecRefused ty.grow c.blockSize free l.length cap op = true
    · simp only [vecRefused] at hr
      split at hr
      · next n hn =>
        simp only [Bool.not_eq_eq_eq_not, Bool.not_true, decide_eq_false_iff_not, not_or, Nat.not_lt] at hr
        exact ⟨n, hn, hr.1, hr.2⟩
      · cases hr
    · have hr : vecRefused ty.grow c.blockSize free l.length cap op = false := by simpa using hr
      simp only [vecIdeal] at h
      rw [if_neg (by simp [hr]), scarceVecStep_free hr] at h
      cases e : idealVecStep c.blockSize l op with
      | ub u => rw [e] at h; exact nomatch h
      | ok r =>
        obtain ⟨a, l'⟩ := r
        have := idealVecStep_no_badAlloc e
        rw [e] at h
        cases h
        exact absurd rfl this
  · rintro ⟨n, hn, h0, hf⟩
    simp only [vecIdeal]
    rw [if_neg (by simp [hx])]
    simp only [scarceVecStep, hn]
    rw [if_neg (by omega)]
    cases op with
    | shrinkToFit b k => exact absurd rfl (hs b k)
    | pushBack e k => exact ⟨_, rfl⟩
    | reserve m k => exact ⟨_, rfl⟩
    | popBack => exact ⟨_, rfl⟩
    | clear => exact ⟨_, rfl⟩
    | get k => exact ⟨_, rfl⟩

/-- C122: for vectors one block more than there are vectors at any time is enough: then no call is refused, so that (`C122_vector_alone`) each is a list. -/
theorem C122_vectors_enough {c : Cfg} {total n : Nat} (hn : n + 1 ≤ total) (calls : List Call) (hv : VectorsOnly calls) : ∀ {is is' : List Ideal} {as : List Answer},
    (∀ a ∈ is, a.isVec = true ∨ a.isGone = true) → AtMost c total n is calls → idealRun c total is calls = .ok (as, is') → .badAlloc ∉ as := by
  induction calls with
  | nil => intro is is' as _ _ h; cases h; simp
  | cons call calls ih =>
    intro is is' as hi hm h
    obtain ⟨a, is1, as', e1, e2, rfl⟩ := idealRun_cons h
    have hv' : VectorsOnly calls := fun x hx => hv x (by simp [hx])
    have hrest : ∀ (_ : ∀ x ∈ is1, x.isVec = true ∨ x.isGone = true) (_ : a ≠ .badAlloc), .badAlloc ∉ a :: as' := fun h1 h2 => by
      simp only [List.mem_cons, not_or]
      exact ⟨fun e => h2 e.symm, ih hv' h1 (hm.2 a is1 e1) e2⟩
    have hset : ∀ (j : Nat) (x : Ideal), (x.isVec = true ∨ x.isGone = true) → ∀ y ∈ is.set j x, y.isVec = true ∨ y.isGone = true := fun j x hx y hy => by
      rcases List.mem_or_eq_of_mem_set hy with h | h
      · exact hi y h
      · exact h ▸ hx
    cases call with
    | newVec ty =>
      cases e1
      refine hrest ?_ (by simp)
      intro x hx
      rcases List.mem_append.1 hx with hx | hx
      · exact hi x hx
      · simp only [List.mem_singleton] at hx; rw [hx]; exact .inl rfl
    | newMap ty => exact (hv (.newMap ty) (by simp)).elim
    | map j op => exact (hv (.map j op) (by simp)).elim
    | destroy j =>
      simp only [idealStep] at e1
      split at e1
      · cases e1; exact hrest (hset _ _ (.inr rfl)) (by simp)
      · cases e1; exact hrest (hset _ _ (.inr rfl)) (by simp)
      · cases e1; exact hrest hi (by simp)
    | vec j op =>
      simp only [idealStep] at e1
      split at e1
      · next ty l cap hj =>
        have h1 := countP_set_gone hj rfl
        have h2 := hm.now
        have h3 := usedAll_vectors (is := is.set j .gone) (hset _ _ (.inr rfl))
        have hleft : 2 ≤ left total is j := by rw [left]; omega
        have hr : vecRefused ty.grow c.blockSize (left total is j) l.length cap op = false := by
          simp only [vecRefused]
          split
          · simp only [Bool.not_eq_eq_eq_not, Bool.not_false, decide_eq_true_eq]
            right; split <;> omega
          · rfl
        simp only [vecIdeal] at e1
        rw [if_neg (by simp [hr]), scarceVecStep_free hr] at e1
        cases e3 : idealVecStep c.blockSize l op with
        | ub u => rw [e3] at e1; exact nomatch e1
        | ok r =>
          obtain ⟨x, l'⟩ := r
          rw [e3] at e1
          cases e1
          exact hrest (hset _ _ (.inl rfl)) (idealVecStep_no_badAlloc e3)
      · cases e1; exact hrest hi (by simp)

/-! ## A case -/

/-- Two vectors and a map in a pool of 20 blocks. -/
def sharing : List Call :=
  [.newVec ⟨1, libstdcxxGrow⟩, .newMap ⟨1, 1, libstdcxxRehash⟩, .newVec ⟨1, libcxxGrow⟩,
   .vec 0 (.pushBack [1] 0), .map 1 (.assign [7] [8] 0 0), .vec 2 (.pushBack [2] 0), .vec 0 (.pushBack [3] 0), .map 1 (.find [7]), .vec 2 (.get 0),
   .destroy 0, .vec 2 (.pushBack [4] 0), .vec 2 (.get 1), .map 1 (.erase [7])]

/-- They answer as they should; in a pool of four blocks the map's buckets, the map's node and the two vectors fill it, and the next reallocation is refused. -/
example : idealRun (lp64 20 128 4096 true) 20 [] sharing =
      .ok ([.done, .done, .done, .done, .done, .done, .done, .value [8], .value [2], .done, .done, .value [4], .done],
        [.gone, .map ⟨1, 1, libstdcxxRehash⟩ [] 13 true, .vec ⟨1, libcxxGrow⟩ [[2], [4]] 2]) ∧
    idealRun (lp64 4 128 4096 true) 4 [] sharing =
      .ok ([.done, .done, .done, .done, .done, .done, .badAlloc, .value [8], .value [2], .done, .done, .value [4], .done],
        [.gone, .map ⟨1, 1, libstdcxxRehash⟩ [] 13 true, .vec ⟨1, libcxxGrow⟩ [[2], [4]] 2]) := ⟨rfl, rfl⟩

theorem ProgramOk.cons {c : Cfg} {total : Nat} {is is' : List Ideal} {call : Call} {calls : List Call} {a : Answer} (h1 : call.TypeOk c) (h2 : call.Typed is)
    (h3 : idealStep c total is call = .ok (a, is')) (h4 : ProgramOk c total is' calls) : ProgramOk c total is (call :: calls) :=
  ⟨h1, h2, fun x y h => by rw [h3] at h; cases h; exact h4⟩

/-- The program meets the hypotheses of `C122_independent`. -/
example : ProgramOk (lp64 20 128 4096 true) 20 [] sharing := by
  have hv : Call.TypeOk (lp64 20 128 4096 true) (.newVec ⟨1, libstdcxxGrow⟩) := ⟨by decide, libstdcxxGrow_ok⟩
  have hw : Call.TypeOk (lp64 20 128 4096 true) (.newVec ⟨1, libcxxGrow⟩) := ⟨by decide, libcxxGrow_ok⟩
  have hm : Call.TypeOk (lp64 20 128 4096 true) (.newMap ⟨1, 1, libstdcxxRehash⟩) := by show 8 + 1 + 1 ≤ _; decide
  refine .cons hv trivial rfl (.cons hm trivial rfl (.cons hw trivial rfl (.cons trivial ?_ rfl (.cons trivial ?_ rfl (.cons trivial ?_ rfl
    (.cons trivial ?_ rfl (.cons trivial ?_ rfl (.cons trivial ?_ rfl (.cons trivial trivial rfl (.cons trivial ?_ rfl (.cons trivial ?_ rfl
    (.cons trivial ?_ rfl trivial))))))))))))
  · intro ty l cap h; cases h; rfl
  · intro ty kv b array h; cases h; exact ⟨rfl, rfl⟩
  · intro ty l cap h; cases h; rfl
  · intro ty l cap h; cases h; rfl
  · intro ty kv b array h; cases h; rfl
  · intro ty l cap h; trivial
  · intro ty l cap h; cases h; rfl
  · intro ty l cap h; trivial
  · intro ty kv b array h; cases h; rfl

end Uavcan.Stl
