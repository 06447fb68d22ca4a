import Verif.Spec.SharedQueues
import Verif.Props.PoolList
import Verif.Props.PoolQueue
import Verif.Props.PoolWait

/-!
# C144: lists and transmit queues on one pool
-/

namespace Uavcan.SharedQueues
open Uavcan.Pool Uavcan.Stl Uavcan.Spec Uavcan.Spec.Shared

variable {mtu : Nat}

/-- The blocks of containers. -/
def blocks (os : List (Obj mtu)) : List Nat := (os.map Obj.nodes).flatten

theorem blocks_set (os : List (Obj mtu)) (i : Nat) (o : Obj mtu) (h : i < os.length) : (blocks (os.set i o)).Perm (o.nodes ++ blocks (os.eraseIdx i)) := by
  induction os generalizing i with
  | nil => exact absurd h (by simp)
  | cons x os ih =>
    cases i with
    | zero => exact List.Perm.refl _
    | succ i =>
      show (x.nodes ++ blocks (os.set i o)).Perm (o.nodes ++ (x.nodes ++ blocks (os.eraseIdx i)))
      refine ((ih i (by simpa using h)).append_left x.nodes).trans ?_
      rw [← List.append_assoc, ← List.append_assoc]
      exact List.perm_append_comm.append_right _

theorem blocks_get {os : List (Obj mtu)} {i : Nat} {o : Obj mtu} (h : os[i]? = some o) : (blocks os).Perm (o.nodes ++ blocks (os.eraseIdx i)) := by
  obtain ⟨hi, rfl⟩ := List.getElem?_eq_some_iff.1 h
  have := blocks_set os i os[i] hi
  rwa [List.set_getElem_self] at this

theorem mem_blocks {os : List (Obj mtu)} {i j : Nat} (hij : j ≠ i) {o : Obj mtu} (h : os[j]? = some o) {b : Nat} (hb : b ∈ o.nodes) : b ∈ blocks (os.eraseIdx i) :=
  List.mem_flatten.2 ⟨o.nodes, List.mem_map.2 ⟨o, List.mem_eraseIdx_iff_getElem?.2 ⟨j, hij, h⟩, rfl⟩, hb⟩

/-- A container of this kind has these elements. -/
inductive Holds (mem : Mem) : Kind mtu → Obj mtu → Ideal mtu → Prop where
  | list (y : PoolList.Ty) (nodes : List Nat) (q : List (List Pool.Byte)) : nodes.map (PoolList.elemAt y mem) = q → Holds mem (.list y) (.list y nodes) (.list q)
  | queue (y : PoolQueue.Layout mtu) (t : PoolQueue.Tree) (q : List (Can.Frame mtu)) : Can.Sorted (t.nodes.map (PoolQueue.frameAt y mem)) q → Holds mem (.queue y) (.queue y t) (.queue q)

theorem Holds.size {mem : Mem} {k : Kind mtu} {o : Obj mtu} {d : Ideal mtu} (h : Holds mem k o d) : o.nodes.length = d.size := by
  cases h with
  | list y nodes q h => rw [← h]; simp [Obj.nodes, Ideal.size]
  | queue y t q h =>
    have := PoolQueue.Sorted.length h
    simpa [Obj.nodes, Ideal.size] using this

theorem Holds.keep {c : Cfg} {mem mem' : Mem} {k : Kind mtu} {o : Obj mtu} {d : Ideal mtu} (h : Holds mem k o d) (hk : k.Fits c)
    (hm : ∀ b ∈ o.nodes, ∀ x, b ≤ x → x < b + c.sizeofBlock → mem' x = mem x) : Holds mem' k o d := by
  cases h with
  | list y nodes q h =>
    have hk : y.header + y.sizeT ≤ c.sizeofBlock := hk
    refine .list y nodes q ?_
    rw [← h]
    exact PoolList.map_elemAt_congr fun a ha x h1 h2 => hm a ha x (by omega) (by omega)
  | queue y t q h =>
    have hk : y.header + y.size ≤ c.sizeofBlock := hk.1
    refine .queue y t q ?_
    have e : t.nodes.map (PoolQueue.frameAt y mem') = t.nodes.map (PoolQueue.frameAt y mem) :=
      PoolQueue.map_frameAt_congr fun a ha x h1 h2 => hm a ha x (by omega) (by omega)
    rw [e]
    exact h

/-- The containers in state `s` have these elements; `live` and `mem0` are the blocks of other users and their contents. -/
structure World (c : Cfg) (ks : List (Kind mtu)) (live : List Nat) (mem0 : Mem) (s : State) (os : List (Obj mtu)) (ds : List (Ideal mtu)) : Prop where
  own : Own c s (blocks os ++ live)
  frame : Stl.Frame c live mem0 s.mem
  lenO : os.length = ks.length
  lenD : ds.length = ks.length
  holds : ∀ (i : Nat) (k : Kind mtu) (o : Obj mtu) (d : Ideal mtu), ks[i]? = some k → os[i]? = some o → ds[i]? = some d → Holds s.mem k o d

theorem World.at {c : Cfg} {ks : List (Kind mtu)} {live : List Nat} {mem0 : Mem} {s : State} {os : List (Obj mtu)} {ds : List (Ideal mtu)} (h : World c ks live mem0 s os ds) (i : Nat) :
    (ks[i]? = none ∧ os[i]? = none ∧ ds[i]? = none) ∨ ∃ k o d, ks[i]? = some k ∧ os[i]? = some o ∧ ds[i]? = some d ∧ Holds s.mem k o d := by
  by_cases hi : i < ks.length
  · have ho := h.lenO
    have hd := h.lenD
    exact .inr ⟨ks[i], os[i], ds[i], List.getElem?_eq_getElem _, List.getElem?_eq_getElem _, List.getElem?_eq_getElem _,
      h.holds i _ _ _ (List.getElem?_eq_getElem _) (List.getElem?_eq_getElem _) (List.getElem?_eq_getElem _)⟩
  · have ho := h.lenO
    have hd := h.lenD
    exact .inl ⟨List.getElem?_eq_none (by omega), List.getElem?_eq_none (by omega), List.getElem?_eq_none (by omega)⟩

theorem World.sizes {c : Cfg} {ks : List (Kind mtu)} {live : List Nat} {mem0 : Mem} {s : State} {os : List (Obj mtu)} {ds : List (Ideal mtu)} (h : World c ks live mem0 s os ds) :
    os.map (fun o => o.nodes.length) = ds.map Ideal.size := by
  apply List.ext_getElem?
  intro i
  rw [List.getElem?_map, List.getElem?_map]
  rcases h.at i with ⟨-, e1, e2⟩ | ⟨k, o, d, -, e1, e2, hh⟩
  · rw [e1, e2]; rfl
  · rw [e1, e2]
    exact congrArg some hh.size

theorem map_eraseIdx' {α β : Type} (f : α → β) (l : List α) (i : Nat) : (l.eraseIdx i).map f = (l.map f).eraseIdx i := by
  induction l generalizing i with
  | nil => rfl
  | cons x l ih => cases i with
    | zero => rfl
    | succ i => simp [ih]

/-- The others' blocks are as many as their elements. -/
theorem World.others {c : Cfg} {ks : List (Kind mtu)} {live : List Nat} {mem0 : Mem} {s : State} {os : List (Obj mtu)} {ds : List (Ideal mtu)} (h : World c ks live mem0 s os ds) (i : Nat) :
    room (c.numBlocks - live.length) ds i = c.numBlocks - (blocks (os.eraseIdx i) ++ live).length := by
  have : (blocks (os.eraseIdx i)).length = ((ds.eraseIdx i).map Ideal.size).sum := by
    rw [map_eraseIdx', ← h.sizes, ← map_eraseIdx']
    unfold blocks
    rw [List.length_flatten, List.map_map]
    rfl
  unfold room
  rw [List.length_append, this]
  omega

theorem World.own_at {c : Cfg} {ks : List (Kind mtu)} {live : List Nat} {mem0 : Mem} {s : State} {os : List (Obj mtu)} {ds : List (Ideal mtu)} (h : World c ks live mem0 s os ds) {i : Nat}
    {o : Obj mtu} (ho : os[i]? = some o) : Own c s (o.nodes ++ (blocks (os.eraseIdx i) ++ live)) := by
  refine h.own.perm ?_
  rw [← List.append_assoc]
  exact (blocks_get ho).append_right live

/-- One container has changed, and no other block. -/
theorem World.set {c : Cfg} {ks : List (Kind mtu)} (hk : ∀ k ∈ ks, k.Fits c) {live : List Nat} {mem0 : Mem} {s s' : State} {os : List (Obj mtu)} {ds : List (Ideal mtu)}
    (h : World c ks live mem0 s os ds) {i : Nat} {k : Kind mtu} (hki : ks[i]? = some k) {o : Obj mtu} {d : Ideal mtu} (own : Own c s' (o.nodes ++ (blocks (os.eraseIdx i) ++ live)))
    (frame : Stl.Frame c (blocks (os.eraseIdx i) ++ live) s.mem s'.mem) (holds : Holds s'.mem k o d) : World c ks live mem0 s' (os.set i o) (ds.set i d) := by
  have hi := (List.getElem?_eq_some_iff.1 hki).1
  have hio : i < os.length := by have := h.lenO; omega
  have hid : i < ds.length := by have := h.lenD; omega
  refine ⟨own.perm ?_, fun b hb x h1 h2 => ?_, by simpa using h.lenO, by simpa using h.lenD, fun j k' o' d' e1 e2 e3 => ?_⟩
  · rw [← List.append_assoc]
    exact (blocks_set os i o hio).symm.append_right live
  · rw [frame b (List.mem_append_right _ hb) x h1 h2]
    exact h.frame b hb x h1 h2
  · by_cases hj : i = j
    · subst hj
      rw [List.getElem?_set_self hio] at e2
      rw [List.getElem?_set_self hid] at e3
      rw [hki] at e1
      cases e1; cases e2; cases e3
      exact holds
    · rw [List.getElem?_set_ne hj] at e2
      rw [List.getElem?_set_ne hj] at e3
      exact (h.holds j k' o' d' e1 e2 e3).keep (hk k' (List.mem_of_getElem? e1)) fun b hb x h1 h2 =>
        frame b (List.mem_append_left _ (mem_blocks (Ne.symm hj) e2 hb)) x h1 h2

theorem World.step {c : Cfg} (hc : c.WF) {ks : List (Kind mtu)} (hk : ∀ k ∈ ks, k.Fits c) {live : List Nat} {mem0 : Mem} {s : State} {os : List (Obj mtu)} {ds : List (Ideal mtu)}
    (h : World c ks live mem0 s os ds) {call : Call mtu} (hp : CallProper ks call) {r : Reply mtu} {ds' : List (Ideal mtu)}
    (hs : Shared.step (c.numBlocks - live.length) ds call = some (r, ds')) :
    (c.exceptions = true ∨ ¬ Refuses r → ∃ s' os', callStep c s os call = .ok (r, s', os') ∧ World c ks live mem0 s' os' ds') ∧
    (c.exceptions = false → Refuses r → callStep c s os call = .ub .nullDeref) := by
  have same : ∀ {a : Reply mtu}, ¬ Refuses a → callStep c s os call = .ok (a, s, os) → some (a, ds) = some (r, ds') →
      (c.exceptions = true ∨ ¬ Refuses r → ∃ s' os', callStep c s os call = .ok (r, s', os') ∧ World c ks live mem0 s' os' ds') ∧
      (c.exceptions = false → Refuses r → callStep c s os call = .ub .nullDeref) := by
    intro a ha e1 e2
    cases e2
    exact ⟨fun _ => ⟨s, os, e1, h⟩, fun _ hr => absurd hr ha⟩
  cases call with
  | list i ops =>
    rcases h.at i with ⟨-, e1, e2⟩ | ⟨k, o, d, e0, e1, e2, hh⟩
    · simp only [Shared.step, e2] at hs
      exact same (a := .missing) (fun h => h) (by simp only [callStep, e1]) hs
    · have hfit := hk k (List.mem_of_getElem? e0)
      have hown := h.own_at e1
      cases hh with
      | queue y t q hq =>
        simp only [Shared.step, e2] at hs
        exact same (a := .missing) (fun h => h) (by simp only [callStep, e1]) hs
      | list y nodes q hq =>
        simp only [Shared.step, e2, h.others i] at hs
        obtain ⟨⟨as, q'⟩, hl, hrr⟩ := Option.map_eq_some_iff.1 hs
        cases hrr
        have inv : PoolList.ListInv c y (blocks (os.eraseIdx i) ++ live) s.mem s nodes q := ⟨hown, fun _ _ _ _ _ => rfl, hq⟩
        obtain ⟨r1, r2⟩ := inv.run hc hfit ops (hp y e0) hl
        refine ⟨fun hx => ?_, fun hx hr => ?_⟩
        · obtain ⟨s', nodes', e, i'⟩ := r1 hx
          refine ⟨s', os.set i (.list y nodes'), ?_, h.set hk e0 i'.own i'.frame (.list y nodes' q' i'.elems)⟩
          simp only [callStep, e1]
          rw [e]
          rfl
        · simp only [callStep, e1]
          rw [r2 hx hr]
          rfl
  | queue i ops =>
    rcases h.at i with ⟨-, e1, e2⟩ | ⟨k, o, d, e0, e1, e2, hh⟩
    · simp only [Shared.step, e2] at hs
      exact same (a := .missing) (fun h => h) (by simp only [callStep, e1]) hs
    · have hfit := hk k (List.mem_of_getElem? e0)
      have hown := h.own_at e1
      cases hh with
      | list y nodes q hq =>
        simp only [Shared.step, e2] at hs
        exact same (a := .missing) (fun h => h) (by simp only [callStep, e1]) hs
      | queue y t q hq =>
        simp only [Shared.step, e2, h.others i] at hs
        cases hs
        have inv : PoolQueue.Inv c y (blocks (os.eraseIdx i) ++ live) s.mem s t q := ⟨hown, fun _ _ _ _ _ => rfl, hq⟩
        obtain ⟨r1, r2⟩ := PoolQueue.Inv.run hc hfit.2 hfit.1 ops inv (hp y e0)
        refine ⟨fun hx => ?_, fun hx hr => ?_⟩
        · obtain ⟨s', t', e, i'⟩ := r1 hx
          refine ⟨s', os.set i (.queue y t'), ?_, h.set hk e0 i'.own i'.frame (.queue y t' _ i'.sorted)⟩
          simp only [callStep, e1]
          rw [e]
          rfl
        · simp only [callStep, e1]
          rw [r2 hx hr]
          rfl
  | clear i =>
    rcases h.at i with ⟨-, e1, e2⟩ | ⟨k, o, d, e0, e1, e2, hh⟩
    · simp only [Shared.step, e2] at hs
      exact same (a := .missing) (fun h => h) (by simp only [callStep, e1]) hs
    · have hown := h.own_at e1
      obtain ⟨s', ed, o1, k1⟩ := PoolQueue.deallocateAll_ok hc o.nodes s hown
      cases hh with
      | list y nodes q hq =>
        simp only [Shared.step, e2] at hs
        cases hs
        refine ⟨fun _ => ⟨s', os.set i (.list y []), ?_, h.set hk e0 o1 k1 (.list y [] [] rfl)⟩, fun _ hr => absurd hr (fun h => h)⟩
        simp only [callStep, e1]
        rw [show PoolList.destroy c s nodes = .ok s' from ed]
        rfl
      | queue y t q hq =>
        simp only [Shared.step, e2] at hs
        cases hs
        refine ⟨fun _ => ⟨s', os.set i (.queue y .nil), ?_, h.set hk e0 o1 k1 (.queue y .nil [] .empty)⟩, fun _ hr => absurd hr (fun h => h)⟩
        simp only [callStep, e1]
        rw [show PoolQueue.destroy c s t = .ok s' from ed]
        rfl

theorem World.run {c : Cfg} (hc : c.WF) {ks : List (Kind mtu)} (hk : ∀ k ∈ ks, k.Fits c) {live : List Nat} {mem0 : Mem} (calls : List (Call mtu)) :
    ∀ {s : State} {os : List (Obj mtu)} {ds : List (Ideal mtu)}, World c ks live mem0 s os ds → (∀ call ∈ calls, CallProper ks call) → ∀ {rs : List (Reply mtu)} {ds' : List (Ideal mtu)},
    Shared.run (c.numBlocks - live.length) calls ds = some (rs, ds') →
    (c.exceptions = true ∨ (∀ r ∈ rs, ¬ Refuses r) → ∃ s' os', callRun c s os calls = .ok (rs, s', os') ∧ World c ks live mem0 s' os' ds') ∧
    (c.exceptions = false → (∃ r ∈ rs, Refuses r) → callRun c s os calls = .ub .nullDeref) := by
  induction calls with
  | nil =>
    intro s os ds h _ rs ds' hs
    cases hs
    exact ⟨fun _ => ⟨s, os, rfl, h⟩, fun _ ⟨r, hr, _⟩ => by cases hr⟩
  | cons call calls ih =>
    intro s os ds h hp rs ds' hs
    rw [Shared.run] at hs
    cases h1 : Shared.step (c.numBlocks - live.length) ds call with
    | none => rw [h1] at hs; cases hs
    | some x =>
      obtain ⟨r, ds1⟩ := x
      rw [h1] at hs
      simp only at hs
      obtain ⟨⟨rs1, ds2⟩, hr, hrr⟩ := Option.map_eq_some_iff.1 hs
      cases hrr
      obtain ⟨a1, a2⟩ := h.step hc hk (hp call List.mem_cons_self) h1
      have hp' : ∀ call ∈ calls, CallProper ks call := fun x hx => hp x (List.mem_cons_of_mem _ hx)
      constructor
      · intro hx
        obtain ⟨s1, os1, e1, w1⟩ := a1 (hx.imp id fun hx => hx r List.mem_cons_self)
        obtain ⟨s2, os2, e2, w2⟩ := (ih w1 hp' hr).1 (hx.imp id fun hx r' h' => hx r' (List.mem_cons_of_mem _ h'))
        refine ⟨s2, os2, ?_, w2⟩
        rw [callRun, e1]
        simp only [Outcome.ok_bind]
        rw [e2]
        rfl
      · rintro hx ⟨r', h', hr'⟩
        by_cases hr0 : Refuses r
        · rw [callRun, a2 hx hr0]
          rfl
        · obtain ⟨s1, os1, e1, w1⟩ := a1 (.inr hr0)
          rw [callRun, e1]
          simp only [Outcome.ok_bind]
          rcases List.mem_cons.1 h' with rfl | h'
          · exact absurd hr' hr0
          · rw [(ih w1 hp' hr).2 hx ⟨r', h', hr'⟩]
            rfl

theorem World.start {c : Cfg} {s : State} {live : List Nat} (h : History c s live) (ks : List (Kind mtu)) : World c ks live s.mem s (ks.map Kind.fresh) (ks.map Kind.empty) where
  own := by
    have : blocks (ks.map Kind.fresh) = [] := by
      unfold blocks
      apply List.flatten_eq_nil_iff.2
      intro l hl
      simp only [List.map_map, List.mem_map] at hl
      obtain ⟨k, -, rfl⟩ := hl
      cases k <;> rfl
    rw [this]
    exact Own.of_history h
  frame := fun _ _ _ _ _ => rfl
  lenO := by simp
  lenD := by simp
  holds := by
    intro i k o d e1 e2 e3
    rw [List.getElem?_map, e1] at e2 e3
    cases e2
    cases e3
    cases k with
    | list y => exact .list y [] [] rfl
    | queue y => exact .queue y .nil [] .empty

/-! ## C144 -/

/-- C144: lists and transmit queues that share a pool, with exceptions (or as long as nothing is refused), answer as lists and queues that know nothing of each other but for the room that is
left: one is refused an element exactly if all of them and the other users hold all blocks. They have one block for each element, and do not touch other users' blocks. -/
theorem C144_shared {c : Cfg} (hc : c.WF) {ks : List (Kind mtu)} (hk : ∀ k ∈ ks, k.Fits c) {s : State} {live : List Nat} (h : History c s live) {calls : List (Call mtu)}
    (hp : ∀ call ∈ calls, CallProper ks call) {rs : List (Reply mtu)} {ds : List (Ideal mtu)} (hs : Shared.run (c.numBlocks - live.length) calls (ks.map Kind.empty) = some (rs, ds))
    (hx : c.exceptions = true ∨ ∀ r ∈ rs, ¬ Refuses r) :
    ∃ s' os, callRun c s (ks.map Kind.fresh) calls = .ok (rs, s', os) ∧ os.map (fun o => o.nodes.length) = ds.map Ideal.size ∧
      Own c s' ((os.map Obj.nodes).flatten ++ live) ∧ Stl.Frame c live s.mem s'.mem := by
  obtain ⟨s', os, e, w⟩ := ((World.start h ks).run hc hk calls hp hs).1 hx
  exact ⟨s', os, e, w.sizes, w.own, w.frame⟩

/-- C144: when the last element has been taken out of all containers, in whatever order they were filled and emptied, the pool is as it was: all blocks but those of other users are there to be
given out. -/
theorem C144_given_back {c : Cfg} (hc : c.WF) {ks : List (Kind mtu)} (hk : ∀ k ∈ ks, k.Fits c) {s : State} {live : List Nat} (h : History c s live) {calls : List (Call mtu)}
    (hp : ∀ call ∈ calls, CallProper ks call) {rs : List (Reply mtu)} {ds : List (Ideal mtu)} (hs : Shared.run (c.numBlocks - live.length) calls (ks.map Kind.empty) = some (rs, ds))
    (hx : c.exceptions = true ∨ ∀ r ∈ rs, ¬ Refuses r) (h0 : ∀ d ∈ ds, d.size = 0) :
    ∃ s' os, callRun c s (ks.map Kind.fresh) calls = .ok (rs, s', os) ∧ Own c s' live := by
  obtain ⟨s', os, e, hz, ho, -⟩ := C144_shared hc hk h hp hs hx
  refine ⟨s', os, e, ?_⟩
  have : (os.map Obj.nodes).flatten = [] := by
    apply List.flatten_eq_nil_iff.2
    intro l hl
    obtain ⟨o, ho, rfl⟩ := List.mem_map.1 hl
    have hm : o.nodes.length ∈ ds.map Ideal.size := hz ▸ List.mem_map.2 ⟨o, ho, rfl⟩
    obtain ⟨d, hd, ed⟩ := List.mem_map.1 hm
    exact List.eq_nil_of_length_eq_zero (ed ▸ h0 d hd)
  rwa [this] at ho

/-- C144: without exceptions the first element too many, in whichever container, is undefined. -/
theorem C144_without_exceptions {c : Cfg} (hc : c.WF) (hx : c.exceptions = false) {ks : List (Kind mtu)} (hk : ∀ k ∈ ks, k.Fits c) {s : State} {live : List Nat} (h : History c s live)
    {calls : List (Call mtu)} (hp : ∀ call ∈ calls, CallProper ks call) {rs : List (Reply mtu)} {ds : List (Ideal mtu)}
    (hs : Shared.run (c.numBlocks - live.length) calls (ks.map Kind.empty) = some (rs, ds)) (hr : ∃ r ∈ rs, Refuses r) :
    callRun c s (ks.map Kind.fresh) calls = .ub .nullDeref :=
  ((World.start h ks).run hc hk calls hp hs).2 hx hr

theorem run_snoc (n : Nat) (call : Call mtu) (calls : List (Call mtu)) : ∀ {ds : List (Ideal mtu)} {rs : List (Reply mtu)} {ds1 : List (Ideal mtu)},
    Shared.run n calls ds = some (rs, ds1) → ∀ {r : Reply mtu} {ds2 : List (Ideal mtu)}, Shared.step n ds1 call = some (r, ds2) →
    Shared.run n (calls ++ [call]) ds = some (rs ++ [r], ds2) := by
  induction calls with
  | nil =>
    intro ds rs ds1 h r ds2 h2
    cases h
    simp only [List.nil_append, Shared.run, h2, Option.map_some]
  | cons c calls ih =>
    intro ds rs ds1 h r ds2 h2
    rw [Shared.run] at h
    cases h1 : Shared.step n ds c with
    | none => rw [h1] at h; cases h
    | some x =>
      obtain ⟨r0, ds0⟩ := x
      rw [h1] at h
      simp only at h
      obtain ⟨⟨rs1, ds3⟩, hr, hrr⟩ := Option.map_eq_some_iff.1 h
      cases hrr
      rw [List.cons_append, Shared.run, h1]
      simp only [ih hr h2, Option.map_some]
      rfl

/-- C144: a guarantee: as long as the other containers leave `n` blocks, a queue that has fewer than `n` frames accepts another, whatever has happened before. -/
theorem C144_reserved {c : Cfg} (hc : c.WF) (hx : c.exceptions = true) {ks : List (Kind mtu)} (hk : ∀ k ∈ ks, k.Fits c) {s : State} {live : List Nat} (h : History c s live)
    {calls : List (Call mtu)} {i k : Nat} {f : Can.Frame mtu} {links : Nat → List Pool.Byte} {shape : PoolQueue.Tree → PoolQueue.Tree}
    (hp : ∀ call ∈ calls ++ [.queue i [.push f k links shape]], CallProper ks call) {rs : List (Reply mtu)} {ds : List (Ideal mtu)}
    (hs : Shared.run (c.numBlocks - live.length) calls (ks.map Kind.empty) = some (rs, ds)) {q : List (Can.Frame mtu)} (hi : ds[i]? = some (.queue q)) {n : Nat}
    (hothers : ((ds.eraseIdx i).map Ideal.size).sum + n ≤ c.numBlocks - live.length) (hq : q.length < n) :
    ∃ s' os, callRun c s (ks.map Kind.fresh) (calls ++ [.queue i [.push f k links shape]]) = .ok (rs ++ [.queue [.queued]], s', os) := by
  have hst : Shared.step (c.numBlocks - live.length) ds (.queue i [.push f k links shape]) = some (.queue [.queued], ds.set i (.queue (q ++ [f]))) := by
    simp only [Shared.step, hi, List.map_cons, List.map_nil, Spec.PoolQueue.Op.wish]
    have : q.length < room (c.numBlocks - live.length) ds i := by unfold room; omega
    simp only [bounded, if_pos this]
  obtain ⟨s', os, e, -⟩ := C144_shared hc hk h hp (run_snoc _ _ _ hs hst) (.inl hx)
  exact ⟨s', os, e⟩

/-- C144: without that there is none: a queue of its own for frames of high priority does not help if it is on the same pool, that is, if its allocator has the same numbers of blocks and bytes:
frames in the other queue can have all blocks. -/
theorem C144_no_reserve {c : Cfg} (hc : c.WF) (hx : c.exceptions = true) {y z : PoolQueue.Layout mtu} (hy : (Kind.queue y).Fits c) (hz : (Kind.queue z).Fits c) {s : State} {live : List Nat}
    (h : History c s live) (f g : Can.Frame mtu) (hf : Storable f) (hg : Storable g) (k : Nat) (linksY linksZ : Nat → List Pool.Byte) (hly : ∀ a, (linksY a).length = y.header)
    (hlz : ∀ a, (linksZ a).length = z.header) :
    ∃ s' os, callRun c s [.queue y .nil, .queue z .nil] [.queue 0 (List.replicate (c.numBlocks - live.length) (.push f k linksY id)), .queue 1 [.push g k linksZ id]] =
      .ok ([.queue (List.replicate (c.numBlocks - live.length) .queued), .queue [.refused]], s', os) := by
  obtain ⟨s', os, e, -⟩ := C144_shared hc (ks := [.queue y, .queue z]) (by
      intro k hk
      simp only [List.mem_cons, List.not_mem_nil, or_false] at hk
      rcases hk with rfl | rfl
      · exact hy
      · exact hz) h (calls := [.queue 0 (List.replicate (c.numBlocks - live.length) (.push f k linksY id)), .queue 1 [.push g k linksZ id]]) (by
      intro call hcall
      simp only [List.mem_cons, List.not_mem_nil, or_false] at hcall
      rcases hcall with rfl | rfl
      · intro y' hy' op hop
        cases hy'
        rw [(List.mem_replicate.1 hop).2]
        exact ⟨hf, hly, fun _ => rfl⟩
      · intro z' hz' op hop
        cases hz'
        rw [List.mem_singleton.1 hop]
        exact ⟨hg, hlz, fun _ => rfl⟩)
      (rs := [.queue (List.replicate (c.numBlocks - live.length) .queued), .queue [.refused]]) (ds := [.queue (List.replicate (c.numBlocks - live.length) f), .queue []]) (by
      have hfill : bounded (c.numBlocks - live.length) (List.replicate (c.numBlocks - live.length) (Spec.PoolQueue.Op.wish (.push f k linksY id))) [] =
          (List.replicate (c.numBlocks - live.length) .queued, List.replicate (c.numBlocks - live.length) f) := PoolQueue.bounded_fill _ f _ [] (by simp)
      have r0 : room (c.numBlocks - live.length) ([.queue y, .queue z].map Kind.empty : List (Ideal mtu)) 0 = c.numBlocks - live.length := by
        simp [room, Kind.empty, Ideal.size]
      have r1 : room (c.numBlocks - live.length) ([.queue (List.replicate (c.numBlocks - live.length) f), .queue []] : List (Ideal mtu)) 1 = 0 := by
        simp [room, Ideal.size]
      rw [Shared.run]
      have s0 : Shared.step (c.numBlocks - live.length) ([.queue y, .queue z].map Kind.empty) (.queue 0 (List.replicate (c.numBlocks - live.length) (.push f k linksY id))) =
          some (.queue (List.replicate (c.numBlocks - live.length) .queued), [.queue (List.replicate (c.numBlocks - live.length) f), .queue []]) := by
        rw [Shared.step, r0, List.map_replicate]
        show some (Reply.queue (bounded _ _ []).1, [Ideal.queue (bounded _ _ []).2, .queue []]) = _
        rw [hfill]
      have s1 : Shared.step (c.numBlocks - live.length) [.queue (List.replicate (c.numBlocks - live.length) f), .queue []] (.queue 1 [.push g k linksZ id]) =
          some (.queue [.refused], [.queue (List.replicate (c.numBlocks - live.length) f), .queue []]) := by
        rw [Shared.step, r1]
        rfl
      rw [s0]
      simp only [Shared.run, s1, Option.map_some]) (.inl hx)
  exact ⟨s', os, e⟩

/-- C144: two blocks left on a 64-bit PC for a list and a queue: with an element and a frame in them the second frame is refused; there is room for it after the list has been emptied, and then
none for an element. -/
example {s : State} {a : Nat} (h : History (lp64 3 128 0x1000 true) s [a]) (sp : Nat) (e : List Pool.Byte) (he : e.length = 100) (f g : Can.Frame 64) (hf : Storable f) (hg : Storable g) :
    ∃ s' os, callRun (lp64 3 128 0x1000 true) s [.list ⟨16, 100⟩ [], .queue (PoolQueue.plain 8 64) .nil]
      [.list 0 [.insert 0 e sp (fun _ => List.replicate 16 0)],
        .queue 1 [.push f sp (fun _ => List.replicate 32 0) id, .push g sp (fun _ => List.replicate 32 0) id],
        .list 0 [.get 0],
        .clear 0,
        .queue 1 [.push g sp (fun _ => List.replicate 32 0) id],
        .list 0 [.insert 0 e sp (fun _ => List.replicate 16 0)]] =
      .ok ([.list [.done], .queue [.queued, .refused], .list [.value e], .cleared, .queue [.queued], .list [.badAlloc]], s', os) := by
  have hc : (lp64 3 128 0x1000 true).WF := ⟨by decide, by decide, by decide, by decide, by decide, by decide, by decide, by decide⟩
  obtain ⟨s', os, e1, -⟩ := C144_shared hc (ks := [.list ⟨16, 100⟩, .queue (PoolQueue.plain 8 64)]) (by
      intro k hk
      simp only [List.mem_cons, List.not_mem_nil, or_false] at hk
      rcases hk with rfl | rfl
      · exact (by decide : 16 + 100 ≤ (lp64 3 128 0x1000 true).sizeofBlock)
      · exact ⟨by decide, PoolQueue.plain_good 8 64⟩) h (calls := [.list 0 [.insert 0 e sp (fun _ => List.replicate 16 0)],
        .queue 1 [.push f sp (fun _ => List.replicate 32 0) id, .push g sp (fun _ => List.replicate 32 0) id],
        .list 0 [.get 0],
        .clear 0,
        .queue 1 [.push g sp (fun _ => List.replicate 32 0) id],
        .list 0 [.insert 0 e sp (fun _ => List.replicate 16 0)]]) (by
      have hl : ∀ op ∈ [PoolList.Op.insert 0 e sp (fun _ => List.replicate 16 0)], ListProper ⟨16, 100⟩ op := by
        intro op hop
        cases List.mem_singleton.1 hop
        exact ⟨he, fun _ => rfl⟩
      have hq : ∀ f' ∈ [f, g], Proper (PoolQueue.plain 8 64) (.push f' sp (fun _ => List.replicate 32 0) id) := by
        intro f' hf'
        simp only [List.mem_cons, List.not_mem_nil, or_false] at hf'
        rcases hf' with rfl | rfl
        · exact ⟨hf, fun _ => rfl, fun _ => rfl⟩
        · exact ⟨hg, fun _ => rfl, fun _ => rfl⟩
      intro call hcall
      simp only [List.mem_cons, List.not_mem_nil, or_false] at hcall
      rcases hcall with rfl | rfl | rfl | rfl | rfl | rfl
      · intro y hy; cases hy; exact hl
      · intro y hy op hop
        cases hy
        simp only [List.mem_cons, List.not_mem_nil, or_false] at hop
        rcases hop with rfl | rfl
        · exact hq f List.mem_cons_self
        · exact hq g (List.mem_cons_of_mem _ List.mem_cons_self)
      · intro y hy op hop
        cases List.mem_singleton.1 hop
        exact trivial
      · exact trivial
      · intro y hy op hop
        cases hy
        cases List.mem_singleton.1 hop
        exact hq g (List.mem_cons_of_mem _ List.mem_cons_self)
      · intro y hy; cases hy; exact hl) (rs := [.list [.done], .queue [.queued, .refused], .list [.value e], .cleared, .queue [.queued], .list [.badAlloc]])
      (ds := [.list [], .queue [f, g]]) rfl (.inl rfl)
  exact ⟨s', os, e1⟩

end Uavcan.SharedQueues
