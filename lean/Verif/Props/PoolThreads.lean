import Verif.Lemmas.PoolThreads

/-!
# C125: threads that keep to their own blocks do not disturb one another
-/

namespace Uavcan.Pool
open Spec Stl

/-- C125: whatever the schedule, programs that keep to their blocks never do anything undefined on a pool that other users hold blocks of as well. Each program
is where it could be alone with an allocator; the blocks held by the threads and by the other users are distinct and do not overlap, each thread finds in its blocks
what it wrote, and the blocks of the other users are as they were. To the pool it is a history of one client (so that all of C21–C24 apply). -/
theorem C125_undisturbed {c : Cfg} (hc : c.WF) {s : State} {live : List Nat} (h : History c s live) (ps : List Prog)
    (hp : ∀ p ∈ ps, KeepsToItsBlocks c p) (sched : List (Nat × Nat)) :
    ∃ s' ps', threads c s ps sched = .ok (s', ps') ∧ ∃ xs : List Solo, xs.map (·.prog) = ps' ∧ xs.length = ps.length ∧
      (∀ (t : Nat) (x : Solo) (p : Prog), xs[t]? = some x → ps[t]? = some p → ∃ view, SoloRun c ⟨[], view, p⟩ x) ∧
      (∃ live', History c s' live' ∧ live'.Perm (xs.flatMap (·.owned) ++ live)) ∧
      (xs.flatMap (·.owned) ++ live).Nodup ∧
      (∀ a ∈ xs.flatMap (·.owned) ++ live, ∀ b ∈ xs.flatMap (·.owned) ++ live, a ≠ b → DisjointRanges a c.sizeofBlock b c.sizeofBlock) ∧
      (∀ x ∈ xs, ∀ a, Within c x.owned a → s'.mem a = x.view a) ∧
      (∀ a, Within c live a → s'.mem a = s.mem a) := by
  obtain ⟨s', ps', xs, h1, h2, hi⟩ := threads_inv hc hp sched s ps _ rfl (ThreadsInv.start h ps)
  refine ⟨s', ps', h1, xs, ?_, by rw [hi.len, h2], hi.alone, hi.own, hi.own.nodup hc, fun a ha b hb hab => hi.own.disjoint hc ha hb hab, ?_, ?_⟩
  · apply List.ext_getElem?
    intro i
    rw [List.getElem?_map]
    cases hx : xs[i]? with
    | none =>
      have := List.getElem?_eq_none_iff.1 hx
      exact (List.getElem?_eq_none (by rw [← hi.len]; exact this)).symm
    | some x => exact (hi.prog i x hx).symm
  · intro x hx a ha
    obtain ⟨i, hi'⟩ := List.getElem?_of_mem hx
    exact hi.view i x hi' a ha
  · rintro a ⟨b, hb, g1, g2⟩
    exact hi.frame b hb a g1 g2

/-- C125: so a program that ends gives an answer it could give alone. -/
theorem C125_answers {c : Cfg} (hc : c.WF) {s : State} {live : List Nat} (h : History c s live) (ps : List Prog)
    (hp : ∀ p ∈ ps, KeepsToItsBlocks c p) (sched : List (Nat × Nat)) :
    ∃ s' ps', threads c s ps sched = .ok (s', ps') ∧ ps'.length = ps.length ∧
      ∀ (t : Nat) (p : Prog) (n : Nat), ps[t]? = some p → ps'[t]? = some (.done n) → AnswersAlone c p n := by
  obtain ⟨s', ps', h1, xs, hm, hl, hr, -⟩ := C125_undisturbed hc h ps hp sched
  subst hm
  refine ⟨s', _, h1, by rw [List.length_map, hl], ?_⟩
  intro t p n ht hn
  rw [List.getElem?_map] at hn
  cases hx : xs[t]? with
  | none => rw [hx] at hn; cases hn
  | some x =>
    rw [hx] at hn
    obtain ⟨owned, view', prog⟩ := x
    simp only [Option.map_some, Option.some.injEq] at hn
    subst hn
    obtain ⟨view, g⟩ := hr t _ p hx ht
    exact ⟨view, owned, view', g⟩

/-- C125: none waits for another: from wherever a schedule has brought the threads, they can all be brought to their ends. -/
theorem C125_all_end {c : Cfg} (hc : c.WF) {s : State} {live : List Nat} (h : History c s live) (ps : List Prog)
    (hp : ∀ p ∈ ps, KeepsToItsBlocks c p) (sched : List (Nat × Nat)) :
    ∃ rest s' ps', threads c s ps (sched ++ rest) = .ok (s', ps') ∧ ps'.length = ps.length ∧ ∀ p ∈ ps', ∃ n, p = .done n := by
  obtain ⟨s1, ps1, os, h1, h2, hi⟩ := threads_inv hc hp sched s ps _ rfl (ThreadsInv.start h ps)
  obtain ⟨rest, s', ps', g1, g2, g3⟩ := finish_all hc hp ps1.length s1 ps1 os h2 hi
  refine ⟨rest, s', ps', ?_, by omega, ?_⟩
  · rw [threads_append, h1]; exact g1
  · intro p hm
    obtain ⟨i, hi'⟩ := List.getElem?_of_mem hm
    have := (List.getElem?_eq_some_iff.1 hi').1
    obtain ⟨n, hn⟩ := g3 i (by omega) (by omega)
    rw [hi'] at hn
    exact ⟨n, Option.some.inj hn⟩

/-- C125: an allocation is refused exactly when it asks for too much or the threads and the other users hold every block between them; else a block is handed
out that none of them holds. -/
theorem C125_refused_iff {c : Cfg} (hc : c.WF) {s : State} {live : List Nat} (h : History c s live) (ps : List Prog)
    (hp : ∀ p ∈ ps, KeepsToItsBlocks c p) (sched : List (Nat × Nat)) :
    ∃ s' ps' held, threads c s ps sched = .ok (s', ps') ∧ (∀ b ∈ live, b ∈ held) ∧ held.Nodup ∧ (∃ live', History c s' live' ∧ live'.Perm held) ∧
      ∀ (t size : Nat) (next : Result → Prog) (k : Nat), ps'[t]? = some (.allocate size next) →
        (size > c.blockSize ∨ held.length = c.numBlocks →
          (Prog.allocate size next).step c s' k = .ok (s', next (if c.exceptions then .badAlloc else .null))) ∧
        (size ≤ c.blockSize ∧ held.length ≠ c.numBlocks →
          ∃ a s'', (Prog.allocate size next).step c s' k = .ok (s'', next (.ptr a)) ∧ a ≠ 0 ∧ a ∉ held ∧ s''.mem = s'.mem) := by
  obtain ⟨s', ps', h1, xs, -, -, -, ho, hn, -⟩ := C125_undisturbed hc h ps hp sched
  refine ⟨s', ps', _, h1, fun b hb => List.mem_append_right _ hb, hn, ho, ?_⟩
  intro t size next k _
  have ho : Own c s' _ := ho
  refine ⟨fun hf => ?_, fun hf => ?_⟩
  · have := ho.alloc_fails hc size k hf
    simp only [Prog.step, this, bind, Outcome.bind, pure]
    rfl
  · have := ho.length_le hc
    obtain ⟨a, s'', e1, e2, e3, e4, -⟩ := ho.alloc hc size k hf.1 (by omega)
    refine ⟨a, s'', ?_, e3, e4, e2⟩
    simp only [Prog.step, e1, bind, Outcome.bind, pure]

/-- C125: how to show of a program that it keeps to its blocks and gives only answers in `Q`: follow its text. Nothing is lost: the rule can be used for
every program of which it is true. -/
theorem C125_rule (c : Cfg) (Q : Nat → Prop) (p : Prog) :
    (KeepsToItsBlocks c p ∧ ∀ n, AnswersAlone c p n → Q n) ↔ ∀ view, Ensures c Q p [] view := by
  constructor
  · rintro ⟨hk, ha⟩ view
    refine Ensures.of_runs p [] view fun y hy => ?_
    rcases hk view y hy with ⟨n, hn⟩ | hz
    · refine .inl ⟨n, hn, ha n ⟨view, y.owned, y.view, ?_⟩⟩
      obtain ⟨_, _, _⟩ := y
      simp only at hn
      subst hn
      exact hy
    · exact .inr hz
  · intro h
    refine ⟨fun view x hx => ?_, ?_⟩
    · exact Ensures.safe (Q := Q) (Ensures.run (x := ⟨[], view, p⟩) (h view) hx)
    · rintro n ⟨view, owned, view', hr⟩
      exact Ensures.run (x := ⟨[], view, p⟩) (h view) hr

/-- C125: programs shown so, each with its own `Q`: in company, whatever the schedule, nothing undefined happens and the answers are in `Q`. -/
theorem C125_in_company {c : Cfg} (hc : c.WF) {s : State} {live : List Nat} (h : History c s live) (ps : List (Prog × (Nat → Prop)))
    (hp : ∀ p ∈ ps, ∀ view, Ensures c p.2 p.1 [] view) (sched : List (Nat × Nat)) :
    ∃ s' ps', threads c s (ps.map (·.1)) sched = .ok (s', ps') ∧ ps'.length = ps.length ∧
      ∀ (t : Nat) (p : Prog × (Nat → Prop)) (n : Nat), ps[t]? = some p → ps'[t]? = some (.done n) → p.2 n := by
  obtain ⟨s', ps', h1, h2, h3⟩ := C125_answers hc h (ps.map (·.1)) (by
    intro p hm
    obtain ⟨q, hq, rfl⟩ := List.mem_map.1 hm
    exact ((C125_rule c q.2 q.1).2 (hp q hq)).1) sched
  refine ⟨s', ps', h1, by rw [h2, List.length_map], ?_⟩
  intro t p n ht hn
  exact ((C125_rule c p.2 p.1).2 (hp p (List.mem_of_getElem? ht))).2 n (h3 t p.1 n (by rw [List.getElem?_map, ht]; rfl) hn)

/-! ## The condition is needed -/

/-- A program that keeps a byte in a block and answers with what it finds there afterwards. -/
def keeper (v : Byte) : Prog :=
  .allocate 1 fun
    | .ptr a => .write a v (.read a fun w => .deallocate a (.done w.toNat))
    | _ => .done 256

/-- A program that takes two blocks and gives them back. -/
def taker : Prog :=
  .allocate 1 fun
    | .ptr a => .allocate 1 fun
      | .ptr b => .deallocate b (.deallocate a (.done 2))
      | _ => .deallocate a (.done 1)
    | _ => .done 0

/-- A program that writes into a block after giving it back. -/
def lateWriter : Prog :=
  .allocate 1 fun
    | .ptr a => .deallocate a (.write a 0x77 (.done 0))
    | _ => .done 1

theorem within_self {c : Cfg} (hc : c.WF) {a : Nat} {owned : List Nat} : Within c (a :: owned) a :=
  ⟨a, List.mem_cons_self, Nat.le_refl _, by have := hc.sizes; omega⟩

/-- C125: alone, and so in company, `keeper v` answers `v`, or 256 if it gets no block. -/
theorem C125_keeper {c : Cfg} (hc : c.WF) (v : Byte) (view : Nat → Byte) :
    Ensures c (fun n => n = v.toNat ∨ n = 256) (keeper v) [] view := by
  refine ⟨?_, ?_⟩
  · intro a view' _ hb _ _
    have := Cfg.isBlock_pos hc hb
    refine ⟨within_self hc, within_self hc, .inr ⟨by omega, List.mem_cons_self, .inl ?_⟩⟩
    simp only [if_true]
  · cases c.exceptions <;> exact .inr rfl

/-- C125: `taker` answers 0, 1 or 2. -/
theorem C125_taker {c : Cfg} (hc : c.WF) (view : Nat → Byte) : Ensures c (fun n => n ≤ 2) taker [] view := by
  refine ⟨?_, ?_⟩
  · intro a view' _ hb _ _
    have := Cfg.isBlock_pos hc hb
    refine ⟨?_, ?_⟩
    · intro b view'' _ hb' hm _
      have := Cfg.isBlock_pos hc hb'
      refine .inr ⟨by omega, List.mem_cons_self, .inr ⟨by omega, ?_, ?_⟩⟩
      · simp
      · exact Nat.le_refl 2
    · cases c.exceptions <;> exact .inr ⟨by omega, List.mem_cons_self, (by decide : 1 ≤ 2)⟩
  · cases c.exceptions <;> exact Nat.zero_le 2

/-- C125: any number of keepers and takers together: every keeper that ends answers the byte it kept, or 256. -/
theorem C125_keepers {c : Cfg} (hc : c.WF) {s : State} {live : List Nat} (h : History c s live) (vs : List Byte) (sched : List (Nat × Nat)) :
    ∃ s' ps', threads c s (vs.map keeper ++ [taker]) sched = .ok (s', ps') ∧
      ∀ (t : Nat) (v : Byte) (n : Nat), vs[t]? = some v → ps'[t]? = some (.done n) → n = v.toNat ∨ n = 256 := by
  obtain ⟨s', ps', h1, -, h3⟩ := C125_in_company hc h
    (vs.map (fun v => (keeper v, fun n => n = v.toNat ∨ n = 256)) ++ [(taker, fun n => n ≤ 2)]) (by
      intro p hp view
      rcases List.mem_append.1 hp with hp | hp
      · obtain ⟨v, -, rfl⟩ := List.mem_map.1 hp
        exact C125_keeper hc v view
      · rw [List.mem_singleton.1 hp]
        exact C125_taker hc view) sched
  refine ⟨s', ps', ?_, ?_⟩
  · rw [← h1, List.map_append, List.map_map]; rfl
  · intro t v n ht hn
    refine h3 t (keeper v, fun n => n = v.toNat ∨ n = 256) n ?_ hn
    have hl := (List.getElem?_eq_some_iff.1 ht).1
    rw [List.getElem?_append_left (by rw [List.length_map]; exact hl), List.getElem?_map, ht]
    rfl

/-- C125: one thread that writes into a block it has given back, and `taker`, which keeps to its blocks, runs into undefined behaviour inside the pool; or `keeper`
finds a byte it did not write. -/
theorem C125_needed : (∃ sched r, threads (exCfg false) (init (exCfg false) fun _ => 0) [lateWriter, taker] sched = .ub r) ∧
    (∃ sched s' ps', threads (exCfg false) (init (exCfg false) fun _ => 0) [lateWriter, keeper 5] sched = .ok (s', ps') ∧
      ps'[1]? = some (.done 0x77)) ∧
    ¬ KeepsToItsBlocks (exCfg false) lateWriter := by
  refine ⟨⟨[(0, 0), (0, 0), (0, 0), (1, 0), (1, 0)], _, rfl⟩, ⟨[(0, 0), (0, 0), (1, 0), (1, 0), (0, 0), (1, 0), (1, 0)], _, _, rfl, rfl⟩, ?_⟩
  intro h
  have := (C125_rule (exCfg false) (fun _ => True) lateWriter).1 ⟨h, fun _ _ => trivial⟩ (fun _ => 0)
  have := this.1 (exCfg false).base (fun _ => 0) (by decide) (by decide) (by simp) (by simp)
  rcases this with ⟨h0, -⟩ | ⟨-, -, ⟨b, hb, -⟩, -⟩
  · exact absurd h0 (by decide)
  · simp at hb

/-- C125: two keepers and a taker, on a pool of which another user holds a block. -/
example : ∃ s live, History (exCfg false) s live ∧ live.length = 1 ∧
    ∀ sched, ∃ s' ps', threads (exCfg false) s ([keeper 5, keeper 6] ++ [taker]) sched = .ok (s', ps') := by
  have h : History (exCfg false) _ _ := History.call (.allocate 4 0) (History.start fun _ => 0) trivial rfl
  refine ⟨_, _, h, rfl, fun sched => ?_⟩
  obtain ⟨s', ps', h, -⟩ := C125_keepers (exCfg_wf false) h [5, 6] sched
  exact ⟨s', ps', h⟩

end Uavcan.Pool
