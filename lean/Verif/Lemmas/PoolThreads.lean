import Verif.Spec.PoolThreads
import Verif.Lemmas.Containers

/-!
# Lemmas about threads that share a pool
-/

namespace Uavcan.Pool
open Spec Stl

/-- The blocks held by all threads. -/
def allOwned (os : List Solo) : List Nat := os.flatMap (·.owned)

theorem allOwned_take (os : List Solo) : ∀ (i : Nat) (x : Solo), os[i]? = some x → ∀ y : Solo,
    (allOwned (os.set i y)).Perm (y.owned ++ allOwned (os.eraseIdx i)) ∧ (allOwned os).Perm (x.owned ++ allOwned (os.eraseIdx i)) := by
  induction os with
  | nil => intro i x h; simp at h
  | cons o os ih =>
    intro i x h y
    cases i with
    | zero =>
      simp only [List.getElem?_cons_zero, Option.some.injEq] at h
      subst h
      simp only [allOwned, List.set_cons_zero, List.flatMap_cons, List.eraseIdx_cons_zero]
      exact ⟨.refl _, .refl _⟩
    | succ i =>
      simp only [List.getElem?_cons_succ] at h
      obtain ⟨h1, h2⟩ := ih i x h y
      simp only [allOwned, List.set_cons_succ, List.flatMap_cons, List.eraseIdx_cons_succ] at h1 h2 ⊢
      refine ⟨(h1.append_left _).trans ?_, (h2.append_left _).trans ?_⟩
      · rw [← List.append_assoc, ← List.append_assoc]; exact List.perm_append_comm.append_right _
      · rw [← List.append_assoc, ← List.append_assoc]; exact List.perm_append_comm.append_right _

/-- Blocks of other threads and of the other users. -/
def others (os : List Solo) (live : List Nat) (i : Nat) : List Nat := allOwned (os.eraseIdx i) ++ live

/-- What holds between the machine and the programs alone. -/
structure ThreadsInv (c : Cfg) (live : List Nat) (mem0 : Mem) (ps0 : List Prog) (s : State) (ps : List Prog) (os : List Solo) : Prop where
  len : os.length = ps.length
  prog : ∀ (i : Nat) (x : Solo), os[i]? = some x → ps[i]? = some x.prog
  alone : ∀ (i : Nat) (x : Solo) (p : Prog), os[i]? = some x → ps0[i]? = some p → ∃ view, SoloRun c ⟨[], view, p⟩ x
  own : Own c s (allOwned os ++ live)
  frame : Frame c live mem0 s.mem
  view : ∀ (i : Nat) (x : Solo), os[i]? = some x → ∀ a, Within c x.owned a → s.mem a = x.view a

theorem ThreadsInv.update {c : Cfg} {live : List Nat} {mem0 : Mem} {ps0 : List Prog} {s s' : State} {ps : List Prog} {os : List Solo}
    (h : ThreadsInv c live mem0 ps0 s ps os) {i : Nat} {x y : Solo} (hi : os[i]? = some x) (hs : SoloStep c x y)
    (hown : Own c s' (y.owned ++ others os live i))
    (hmem : ∀ b ∈ others os live i, ∀ a, b ≤ a → a < b + c.sizeofBlock → s'.mem a = s.mem a)
    (hview : ∀ a, Within c y.owned a → s'.mem a = y.view a) :
    ThreadsInv c live mem0 ps0 s' (ps.set i y.prog) (os.set i y) where
  len := by simp [h.len]
  prog := by
    intro j z hj
    rw [List.getElem?_set] at hj ⊢
    split at hj
    · rename_i e
      subst e
      have hl := (List.getElem?_eq_some_iff.1 hi).1
      rw [if_pos hl] at hj
      cases hj
      rw [if_pos rfl, if_pos (by rw [← h.len]; exact hl)]
    · rename_i e
      rw [if_neg e]
      exact h.prog j z hj
  alone := by
    intro j z p hj hp
    rw [List.getElem?_set] at hj
    split at hj
    · rename_i e
      subst e
      have hl := (List.getElem?_eq_some_iff.1 hi).1
      rw [if_pos hl] at hj
      cases hj
      obtain ⟨v, hr⟩ := h.alone i x p hi hp
      exact ⟨v, hr.step hs⟩
    · exact h.alone j z p hj hp
  own := by
    refine hown.perm ?_
    have := (allOwned_take os i x hi y).1.symm
    unfold others
    rw [← List.append_assoc]
    exact this.append_right live
  frame := by
    intro b hb a h1 h2
    rw [hmem b (List.mem_append_right _ hb) a h1 h2]
    exact h.frame b hb a h1 h2
  view := by
    intro j z hj a ha
    rw [List.getElem?_set] at hj
    split at hj
    · rename_i e
      subst e
      have hl := (List.getElem?_eq_some_iff.1 hi).1
      rw [if_pos hl] at hj
      cases hj
      exact hview a ha
    · rename_i e
      obtain ⟨b, hb, h1, h2⟩ := ha
      rw [hmem b ?_ a h1 h2]
      · exact h.view j z hj a ⟨b, hb, h1, h2⟩
      · refine List.mem_append_left _ (List.mem_flatMap.2 ⟨z, ?_, hb⟩)
        exact List.mem_eraseIdx_iff_getElem?.2 ⟨j, Ne.symm e, hj⟩

theorem ThreadsInv.mine {c : Cfg} {live : List Nat} {mem0 : Mem} {ps0 : List Prog} {s : State} {ps : List Prog} {os : List Solo}
    (h : ThreadsInv c live mem0 ps0 s ps os) {i : Nat} {x : Solo} (hi : os[i]? = some x) : Own c s (x.owned ++ others os live i) := by
  refine h.own.perm ?_
  unfold others
  rw [← List.append_assoc]
  exact (allOwned_take os i x hi x).2.append_right live

theorem ThreadsInv.step {c : Cfg} {live : List Nat} {mem0 : Mem} {ps0 : List Prog} {s : State} {ps : List Prog} {os : List Solo}
    (hc : c.WF) (hp : ∀ p ∈ ps0, KeepsToItsBlocks c p) (hl0 : ps0.length = ps.length) (h : ThreadsInv c live mem0 ps0 s ps os)
    {i : Nat} {p : Prog} (hi : ps[i]? = some p) (k : Nat) :
    ∃ s' p' os', p.step c s k = .ok (s', p') ∧ ThreadsInv c live mem0 ps0 s' (ps.set i p') os' := by
  have hlen := (List.getElem?_eq_some_iff.1 hi).1
  obtain ⟨x, hx⟩ : ∃ x, os[i]? = some x := ⟨os[i]'(by rw [h.len]; exact hlen), List.getElem?_eq_getElem _⟩
  have hpx : p = x.prog := by have := h.prog i x hx; rw [hi] at this; exact Option.some.inj this
  obtain ⟨p0, hp0⟩ : ∃ p0, ps0[i]? = some p0 := ⟨ps0[i]'(by omega), List.getElem?_eq_getElem _⟩
  obtain ⟨v, hr⟩ := h.alone i x p0 hx hp0
  have hsafe := hp p0 (List.mem_of_getElem? hp0) v x hr
  have hown := h.mine hx
  have hset : ps.set i p = ps := by
    apply List.ext_getElem?
    intro j
    rw [List.getElem?_set]
    split
    · rename_i e; subst e; first | rw [if_pos hlen, hi] | rw [hi]
    · rfl
  obtain ⟨owned, view, prog⟩ := x
  simp only at hpx hown hsafe
  subst hpx
  have apart : ∀ {a b : Nat} {s1 : State}, Own c s1 (a :: (owned ++ others os live i)) → b ∈ owned ++ others os live i →
      a + c.sizeofBlock ≤ b ∨ b + c.sizeofBlock ≤ a := by
    intro a b s1 ho hb
    refine ho.disjoint hc List.mem_cons_self (List.mem_cons_of_mem _ hb) ?_
    rintro rfl
    exact (List.nodup_cons.1 (ho.nodup hc)).1 hb
  cases p with
  | done => exact ⟨s, .done _, os, rfl, by rw [hset]; exact h⟩
  | allocate size next =>
    by_cases hf : size > c.blockSize ∨ (owned ++ others os live i).length = c.numBlocks
    · refine ⟨s, next (failure c), _, ?_, h.update hx (y := ⟨owned, view, next (failure c)⟩) .refused hown (fun _ _ _ _ _ => rfl)
        (fun a ha => h.view i _ hx a ha)⟩
      simp only [Prog.step, hown.alloc_fails hc size k hf, bind, Outcome.bind, pure]
    · have := hown.length_le hc
      obtain ⟨a, s', h1, h2, h3, h4, h5⟩ := hown.alloc hc size k (by omega) (by omega)
      have hb : c.isBlock a = true := by
        obtain ⟨lv, hh, hperm⟩ := h5
        obtain ⟨free, hi'⟩ := hh.inv hc
        exact (hi'.all a).1 (List.mem_append_right _ (hperm.mem_iff.2 List.mem_cons_self))
      refine ⟨s', next (.ptr a), _, ?_, h.update hx (y := ⟨a :: owned, s.mem, next (.ptr a)⟩)
        (.granted (by omega) hb (fun hm => h4 (List.mem_append_left _ hm)) (fun z hz => h.view i _ hx z hz)) h5 (fun _ _ _ _ _ => by rw [h2]) (fun _ _ => by rw [h2])⟩
      simp only [Prog.step, h1, bind, Outcome.bind, pure]
  | deallocate ptr next =>
    rcases hsafe with hd | ⟨y, hy⟩
    · obtain ⟨n, hd⟩ := hd; cases hd
    · cases hy with
      | null =>
        refine ⟨s, next, _, ?_, h.update hx (y := ⟨owned, view, next⟩) .null hown (fun _ _ _ _ _ => rfl) (fun a ha => h.view i _ hx a ha)⟩
        simp only [Prog.step, Pool.deallocate, if_true, bind, Outcome.bind, pure]
      | returned hz hm =>
        have hperm : (owned ++ others os live i).Perm (ptr :: (owned.erase ptr ++ others os live i)) := by
          rw [← List.cons_append]
          exact (List.perm_cons_erase hm).append_right _
        have ho := hown.perm hperm
        obtain ⟨s', h1, h2, h3⟩ := ho.dealloc hc
        have hne : ∀ b ∈ owned.erase ptr ++ others os live i, ptr + c.sizeofBlock ≤ b ∨ b + c.sizeofBlock ≤ ptr := by
          intro b hb
          refine ho.disjoint hc List.mem_cons_self (List.mem_cons_of_mem _ hb) ?_
          rintro rfl
          exact (List.nodup_cons.1 (ho.nodup hc)).1 hb
        refine ⟨s', next, _, ?_, h.update hx (y := ⟨owned.erase ptr, view, next⟩) (.returned hz hm) h2 ?_ ?_⟩
        · simp only [Prog.step, h1, bind, Outcome.bind, pure]
        · intro b hb a g1 g2
          have := hne b (List.mem_append_right _ hb)
          exact h3 a (by omega)
        · rintro a ⟨b, hb, g1, g2⟩
          have := hne b (List.mem_append_left _ hb)
          rw [h3 a (by omega)]
          exact h.view i _ hx a ⟨b, List.mem_of_mem_erase hb, g1, g2⟩
  | read addr next =>
    rcases hsafe with hd | ⟨y, hy⟩
    · obtain ⟨n, hd⟩ := hd; cases hd
    · cases hy with
      | read hw =>
        have := h.view i _ hx addr hw
        simp only at this
        refine ⟨s, next (view addr), _, ?_, h.update hx (y := ⟨owned, view, next (view addr)⟩) (.read hw) hown (fun _ _ _ _ _ => rfl)
          (fun a ha => h.view i _ hx a ha)⟩
        simp only [Prog.step, this]
  | write addr w next =>
    rcases hsafe with hd | ⟨y, hy⟩
    · obtain ⟨n, hd⟩ := hd; cases hd
    · cases hy with
      | write hw =>
        obtain ⟨b, hb, g1, g2⟩ := hw
        refine ⟨_, next, _, rfl, h.update hx (y := ⟨owned, fun z => if z = addr then w else view z, next⟩) (.write ⟨b, hb, g1, g2⟩) ?_ ?_ ?_⟩
        · obtain ⟨lv, hh, hperm⟩ := hown
          exact ⟨lv, History.call (.write addr w) hh ⟨b, hperm.mem_iff.2 (List.mem_append_left _ hb), g1, g2⟩ rfl, hperm⟩
        · intro b' hb' a e1 e2
          have hne : b ≠ b' := by
            rintro rfl
            have := List.nodup_append.1 (hown.nodup hc)
            exact this.2.2 b hb b hb' rfl
          have := hown.disjoint hc (List.mem_append_left _ hb) (List.mem_append_right _ hb') hne
          simp only
          rw [if_neg (by omega)]
        · intro a ha
          simp only
          split
          · rfl
          · exact h.view i _ hx a ha

theorem threads_inv {c : Cfg} (hc : c.WF) {live : List Nat} {mem0 : Mem} {ps0 : List Prog} (hp : ∀ p ∈ ps0, KeepsToItsBlocks c p) :
    ∀ (sched : List (Nat × Nat)) (s : State) (ps : List Prog) (os : List Solo), ps0.length = ps.length → ThreadsInv c live mem0 ps0 s ps os →
      ∃ s' ps' os', threads c s ps sched = .ok (s', ps') ∧ ps0.length = ps'.length ∧ ThreadsInv c live mem0 ps0 s' ps' os' := by
  intro sched
  induction sched with
  | nil => intro s ps os hl h; exact ⟨s, ps, os, rfl, hl, h⟩
  | cons tk sched ih =>
    obtain ⟨t, k⟩ := tk
    intro s ps os hl h
    cases ht : ps[t]? with
    | none => simp only [threads, ht]; exact ih s ps os hl h
    | some p =>
      obtain ⟨s', p', os', h1, h2⟩ := h.step hc hp hl ht k
      simp only [threads, ht, h1, bind, Outcome.bind]
      exact ih s' _ os' (by rw [List.length_set]; exact hl) h2

theorem ThreadsInv.start {c : Cfg} {s : State} {live : List Nat} (h : History c s live) (ps : List Prog) :
    ThreadsInv c live s.mem ps s ps (ps.map fun p => ⟨[], s.mem, p⟩) where
  len := by simp
  prog := by
    intro i x hx
    rw [List.getElem?_map] at hx
    cases hp : ps[i]? with
    | none => rw [hp] at hx; cases hx
    | some p => rw [hp] at hx; cases hx; rfl
  alone := by
    intro i x p hx hp
    rw [List.getElem?_map, hp] at hx
    cases hx
    exact ⟨s.mem, .refl _⟩
  own := by
    have : allOwned (ps.map fun p => (⟨[], s.mem, p⟩ : Solo)) = [] := by
      simp only [allOwned, List.flatMap_map, List.flatMap_eq_nil_iff]
      intros; trivial
    rw [this]
    exact Own.of_history h
  frame := fun _ _ _ _ _ => rfl
  view := by
    intro i x hx a ha
    obtain ⟨b, hb, -⟩ := ha
    rw [List.getElem?_map] at hx
    cases hp : ps[i]? with
    | none => rw [hp] at hx; cases hx
    | some p => rw [hp] at hx; cases hx; cases hb

theorem SoloRun.trans {c : Cfg} {x y z : Solo} (h : SoloRun c x y) (g : SoloRun c y z) : SoloRun c x z := by
  induction g with
  | refl => exact h
  | step _ hs ih => exact ih.step hs

theorem _root_.Uavcan.Spec.Ensures.step {c : Cfg} {Q : Nat → Prop} {x y : Solo} (h : Ensures c Q x.prog x.owned x.view) (hs : SoloStep c x y) :
    Ensures c Q y.prog y.owned y.view := by
  cases hs with
  | granted h1 h2 h3 h4 => exact h.1 _ _ h1 h2 h3 h4
  | refused => exact h.2
  | null => exact h.elim (·.2) (fun g => absurd rfl g.1)
  | returned hz => exact h.elim (fun g => absurd g.1 hz) (·.2.2)
  | read => exact h.2
  | write => exact h.2

theorem _root_.Uavcan.Spec.Ensures.run {c : Cfg} {Q : Nat → Prop} {x y : Solo} (h : Ensures c Q x.prog x.owned x.view) (hs : SoloRun c x y) :
    Ensures c Q y.prog y.owned y.view := by
  induction hs with
  | refl => exact h
  | step _ hs ih => exact ih.step hs

theorem _root_.Uavcan.Spec.Ensures.safe {c : Cfg} {Q : Nat → Prop} {x : Solo} (h : Ensures c Q x.prog x.owned x.view) :
    (∃ n, x.prog = .done n) ∨ ∃ y, SoloStep c x y := by
  obtain ⟨owned, view, prog⟩ := x
  cases prog with
  | done n => exact .inl ⟨n, rfl⟩
  | allocate size next => exact .inr ⟨_, .refused⟩
  | deallocate a next =>
    rcases h with ⟨h, -⟩ | ⟨h1, h2, -⟩
    · subst h; exact .inr ⟨_, .null⟩
    · exact .inr ⟨_, .returned h1 h2⟩
  | read a next => exact .inr ⟨_, .read h.1⟩
  | write a v next => exact .inr ⟨_, .write h.1⟩

theorem _root_.Uavcan.Spec.Ensures.of_runs {c : Cfg} {Q : Nat → Prop} (p : Prog) : ∀ (owned : List Nat) (view : Nat → Byte),
    (∀ y, SoloRun c ⟨owned, view, p⟩ y → ((∃ n, y.prog = .done n ∧ Q n) ∨ ∃ z, SoloStep c y z)) → Ensures c Q p owned view := by
  induction p with
  | done n =>
    intro owned view h
    rcases h _ (.refl _) with ⟨m, h1, h2⟩ | ⟨z, hz⟩
    · cases h1; exact h2
    · cases hz
  | allocate size next ih =>
    intro owned view h
    refine ⟨?_, ?_⟩
    · intro a view' h1 h2 h3 h4
      exact ih _ _ _ fun y hy => h y (SoloRun.trans ((SoloRun.refl _).step (.granted h1 h2 h3 h4)) hy)
    · exact ih _ _ _ fun y hy => h y (SoloRun.trans ((SoloRun.refl _).step .refused) hy)
  | deallocate a next ih =>
    intro owned view h
    rcases h _ (.refl _) with ⟨m, h1, -⟩ | ⟨z, hz⟩
    · cases h1
    · cases hz with
      | null => exact .inl ⟨rfl, ih _ _ fun y hy => h y (SoloRun.trans ((SoloRun.refl _).step .null) hy)⟩
      | returned g1 g2 => exact .inr ⟨g1, g2, ih _ _ fun y hy => h y (SoloRun.trans ((SoloRun.refl _).step (.returned g1 g2)) hy)⟩
  | read a next ih =>
    intro owned view h
    rcases h _ (.refl _) with ⟨m, h1, -⟩ | ⟨z, hz⟩
    · cases h1
    · cases hz with
      | read g => exact ⟨g, ih _ _ _ fun y hy => h y (SoloRun.trans ((SoloRun.refl _).step (.read g)) hy)⟩
  | write a v next ih =>
    intro owned view h
    rcases h _ (.refl _) with ⟨m, h1, -⟩ | ⟨z, hz⟩
    · cases h1
    · cases hz with
      | write g => exact ⟨g, ih _ _ fun y hy => h y (SoloRun.trans ((SoloRun.refl _).step (.write g)) hy)⟩

theorem threads_append (c : Cfg) (a b : List (Nat × Nat)) : ∀ (s : State) (ps : List Prog),
    threads c s ps (a ++ b) = (do let (s', ps') ← threads c s ps a; threads c s' ps' b) := by
  induction a with
  | nil => intro s ps; rfl
  | cons tk a ih =>
    obtain ⟨t, k⟩ := tk
    intro s ps
    have e : ∀ sched, threads c s ps ((t, k) :: sched) = match ps[t]? with
        | none => threads c s ps sched
        | some p => (do
          let v ← p.step c s k
          threads c v.1 (ps.set t v.2) sched) := fun _ => rfl
    rw [List.cons_append, e, e]
    cases hq : ps[t]? with
    | none => exact ih s ps
    | some p =>
      simp only
      cases p.step c s k with
      | ub r => rfl
      | ok v => exact ih v.1 (ps.set t v.2)

theorem finish {c : Cfg} (hc : c.WF) {live : List Nat} {mem0 : Mem} {ps0 : List Prog} (hp : ∀ p ∈ ps0, KeepsToItsBlocks c p) (i : Nat) (p : Prog) :
    ∀ (s : State) (ps : List Prog) (os : List Solo), ps0.length = ps.length → ThreadsInv c live mem0 ps0 s ps os → ps[i]? = some p →
      ∃ m s' n, threads c s ps (List.replicate m (i, 0)) = .ok (s', ps.set i (.done n)) := by
  have next : ∀ (s : State) (ps : List Prog) (os : List Solo) (p : Prog), ps0.length = ps.length → ThreadsInv c live mem0 ps0 s ps os → ps[i]? = some p →
      (∀ s' q, p.step c s 0 = .ok (s', q) → ∀ os', ThreadsInv c live mem0 ps0 s' (ps.set i q) os' →
        ∃ m s'' n, threads c s' (ps.set i q) (List.replicate m (i, 0)) = .ok (s'', (ps.set i q).set i (.done n))) →
      ∃ m s' n, threads c s ps (List.replicate m (i, 0)) = .ok (s', ps.set i (.done n)) := by
    intro s ps os p hl h hi hn
    obtain ⟨s', q, os', h1, h2⟩ := h.step hc hp hl hi 0
    obtain ⟨m, s'', n, hm⟩ := hn s' q h1 os' h2
    refine ⟨m + 1, s'', n, ?_⟩
    rw [List.set_set] at hm
    simp only [List.replicate_succ, threads, hi, h1, bind, Outcome.bind]
    exact hm
  have at_i : ∀ (ps : List Prog) (q p : Prog), ps[i]? = some p → (ps.set i q)[i]? = some q := by
    intro ps q p h
    have := (List.getElem?_eq_some_iff.1 h).1
    rw [List.getElem?_set, if_pos rfl, if_pos this]
  induction p with
  | done n =>
    intro s ps os hl h hi
    refine ⟨0, s, n, ?_⟩
    have : ps.set i (.done n) = ps := by
      apply List.ext_getElem?
      intro j
      rw [List.getElem?_set]
      split
      · rename_i e
        subst e
        have := (List.getElem?_eq_some_iff.1 hi).1
        rw [hi]
        first | rw [if_pos this] | rfl
      · rfl
    rw [this]; rfl
  | allocate size next' ih =>
    intro s ps os hl h hi
    refine next s ps os _ hl h hi fun s' q hq os' h' => ?_
    simp only [Prog.step] at hq
    cases hr : Pool.allocate c s size 0 with
    | ub r => rw [hr] at hq; exact nomatch (show Outcome.ub r = Outcome.ok _ from hq)
    | ok v =>
      rw [hr] at hq
      have : (v.2, next' v.1) = (s', q) := Outcome.ok.inj hq
      cases this
      exact ih v.1 v.2 _ os' (by rw [List.length_set]; exact hl) h' (at_i ps _ _ hi)
  | deallocate a next' ih =>
    intro s ps os hl h hi
    refine next s ps os _ hl h hi fun s' q hq os' h' => ?_
    simp only [Prog.step] at hq
    cases hr : Pool.deallocate c s a with
    | ub r => rw [hr] at hq; exact nomatch (show Outcome.ub r = Outcome.ok _ from hq)
    | ok v =>
      rw [hr] at hq
      have : (v.2, next') = (s', q) := Outcome.ok.inj hq
      cases this
      exact ih v.2 _ os' (by rw [List.length_set]; exact hl) h' (at_i ps _ _ hi)
  | read a next' ih =>
    intro s ps os hl h hi
    refine next s ps os _ hl h hi fun s' q hq os' h' => ?_
    cases hq
    exact ih _ s _ os' (by rw [List.length_set]; exact hl) h' (at_i ps _ _ hi)
  | write a v next' ih =>
    intro s ps os hl h hi
    refine next s ps os _ hl h hi fun s' q hq os' h' => ?_
    cases hq
    exact ih _ _ os' (by rw [List.length_set]; exact hl) h' (at_i ps _ _ hi)

theorem finish_all {c : Cfg} (hc : c.WF) {live : List Nat} {mem0 : Mem} {ps0 : List Prog} (hp : ∀ p ∈ ps0, KeepsToItsBlocks c p) (m : Nat) :
    ∀ (s : State) (ps : List Prog) (os : List Solo), ps0.length = ps.length → ThreadsInv c live mem0 ps0 s ps os →
      ∃ sched s' ps', threads c s ps sched = .ok (s', ps') ∧ ps'.length = ps.length ∧ ∀ i, i < m → i < ps.length → ∃ n, ps'[i]? = some (.done n) := by
  induction m with
  | zero => intro s ps os _ _; exact ⟨[], s, ps, rfl, rfl, fun i hi => absurd hi (by omega)⟩
  | succ m ih =>
    intro s ps os hl h
    obtain ⟨sched, s', ps', h1, h2, h3⟩ := ih s ps os hl h
    by_cases hm : m < ps.length
    · obtain ⟨s2, ps2, os', h1', hl', hi'⟩ := threads_inv hc hp sched s ps os hl h
      rw [h1] at h1'
      cases h1'
      have hg : ps'[m]? = some (ps'[m]'(by omega)) := List.getElem?_eq_getElem _
      obtain ⟨k, s'', n, hk⟩ := finish hc hp m _ s' ps' os' hl' hi' hg
      refine ⟨sched ++ List.replicate k (m, 0), s'', ps'.set m (.done n), ?_, by rw [List.length_set, h2], ?_⟩
      · rw [threads_append, h1]; exact hk
      · intro i hi hip
        rw [List.getElem?_set]
        split
        · rw [if_pos (by omega)]; exact ⟨n, rfl⟩
        · exact h3 i (by omega) hip
    · exact ⟨sched, s', ps', h1, h2, fun i hi hip => h3 i (by omega) hip⟩

end Uavcan.Pool
