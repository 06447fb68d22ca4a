import Verif.Lemmas.PoolInterrupt

/-!
# C118: the pool can be shared with interrupt handlers

C25 asks for conditions on interleavings of threads. With interrupts it can be said which code is safe by what it calls: exactly if every
level may be interrupted (`MayBeInterrupted`, Spec/PoolInterrupt).
-/

namespace Uavcan.PoolConc
open Pool Spec

/-- The property as stated in `properties.jsonl`. -/
def C118_Statement : Prop :=
  ∀ (c : Cfg) (u : Nat → Level) (mem : Mem) (ls : List Label) (s : CState),
    c.WF → Run c (Interrupts u) (cinit c mem) ls s → Safe c s

/-- C118, partial: for every pool and every number of levels, code is safe whenever interrupts come, and whatever clients write into
their blocks, if and only if each level switches interrupts off around its calls, makes none, is never interrupted by an
`allocate`, or neither gives blocks back nor is interrupted by code that does. Missing: the other usages, which break the pool. -/
theorem C118_exact_partial {c : Cfg} (hc : c.WF) (u : Nat → Level) :
    (∀ mem ls s, Run c (Interrupts u) (cinit c mem) ls s → Safe c s) ↔ SafeUsage u := by
  constructor
  · intro h t
    have hbroken : ¬ ∃ s, Reaches c (Interrupts u) (cinit c fun _ => 0) s ∧ ¬ Safe c s := by
      rintro ⟨s, ⟨ls, hr⟩, hn⟩
      exact hn (h _ ls s hr)
    cases hm : (u t).masks with
    | true => exact .inl hm
    | false =>
      by_cases hab : ∀ t', t < t' → (u t').allocates = false
      · exact .inr (.inr (.inl hab))
      · have ⟨t', hab⟩ := Classical.not_forall.1 hab
        have ⟨ht', ha'⟩ := Classical.not_imp.1 hab
        have ha' : (u t').allocates = true := by simpa using ha'
        cases hf : (u t).frees with
        | true => exact absurd (breaks_free hc _ ht' hm hf ha') hbroken
        | false =>
          by_cases hfr : ∀ t'', t < t'' → (u t'').frees = false
          · exact .inr (.inr (.inr ⟨hf, hfr⟩))
          · have ⟨t'', hfr⟩ := Classical.not_forall.1 hfr
            have ⟨ht'', hf''⟩ := Classical.not_imp.1 hfr
            have hf'' : (u t'').frees = true := by simpa using hf''
            cases ha : (u t).allocates with
            | true => exact absurd (breaks_alloc hc _ ht' ht'' hm ha ha' hf'') hbroken
            | false => exact .inr (.inl ⟨ha, hf⟩)
  · intro hu mem ls s h
    exact C25_race_free_safe_partial hc (interrupts_raceFree hc hu h).1

/-- C118, partial: under the same condition every call, interrupted or not, takes effect at one moment between its beginning and its
end, the pool is a stack of blocks, and `deallocate` never writes into a block that a client holds. -/
theorem C118_atomic_partial {c : Cfg} (hc : c.WF) {u : Nat → Level} (hu : SafeUsage u) {mem : Mem} {ls : List Label} {s : CState}
    (h : Run c (Interrupts u) (cinit c mem) ls s) :
    (∀ t, phases t .out ls = some (s.pc t).phase) ∧ (∃ F, effects ((List.range c.numBlocks).map c.blockAddr) ls = some F) ∧
    ∀ t b old, s.pc t = .dLink b old → b ∉ s.live := by
  have hr := (interrupts_raceFree hc hu h).1
  exact ⟨(C26_linearizable hc hr).1, (C26_linearizable hc hr).2, fun t b old hp => C25_store_not_into_live_partial hc hr hp⟩

/-- Each level only makes calls it is allowed to, and what a call that nobody interrupts has loaded stays the head. -/
structure Undisturbed (u : Nat → Level) (s : CState) : Prop where
  calls : ∀ t, s.pc t ≠ .idle → (u t).allocates = true ∨ (u t).frees = true
  cand : ∀ t p, ((u t).masks = true ∨ ∀ t', t < t' → (u t').allocates = false ∧ (u t').frees = false) →
    (s.pc t).candidate = some p → s.head = p

theorem Undisturbed.step {c : Cfg} {u : Nat → Level} {s s' : CState} {a : Action} (h : Undisturbed u s) (hi : Interrupts u s a)
    (hs : PoolConc.step c s a = some (.ok s')) : Undisturbed u s' := by
  rcases step_moves hs with ⟨b, v, rfl, hpc⟩ | ⟨t, q, hm, hpc⟩
  · have hh : s'.head = s.head := by
      simp only [PoolConc.step] at hs
      split at hs <;> cases hs
      rfl
    exact ⟨fun t => by rw [hpc]; exact h.calls t, fun t p => by rw [hpc, hh]; exact h.cand t p⟩
  · have hrun := hm.canRun hi
    have hcalls : (u t).allocates = true ∨ (u t).frees = true := by
      cases hm with
      | callAlloc => exact .inl hi.1
      | callFree => exact .inr hi.1
      | _ => exact h.calls t (by simp [*])
    refine ⟨fun i => ?_, fun i p hi' => ?_⟩ <;> rw [hpc i] <;> split
    · rename_i e; subst e; exact fun _ => hcalls
    · exact h.calls i
    · rename_i e; subst e
      intro hq
      cases hm with
      | load hp h0 =>
        cases hq
        simp only [PoolConc.step, hp, if_neg h0] at hs
        cases hs; rfl
      | @readNext _ r hp =>
        cases hq
        have := h.cand i _ hi' (by rw [hp]; rfl)
        simp only [PoolConc.step, hp] at hs
        split at hs <;> cases hs
        exact this
      | _ => cases hq
    · rename_i hne
      intro hq
      exfalso
      rcases Nat.lt_trichotomy t i with hlt | heq | hlt
      · rw [hrun.1 i hlt] at hq; cases hq
      · exact hne heq.symm
      · rcases hi' with hm' | hn
        · rw [hrun.2 i hlt hm'] at hq; cases hq
        · have := hn t hlt
          rw [this.1, this.2] at hcalls
          rcases hcalls with h | h <;> cases h

/-- C118: whatever the other levels do, an `allocate` at a level that switches interrupts off, or above which no calls are made, gets its
block at the first attempt: its compare-exchange finds the head unchanged. So the time it takes has a bound. -/
theorem C118_first_attempt {c : Cfg} {u : Nat → Level} {mem : Mem} {ls : List Label} {s : CState}
    (h : Run c (Interrupts u) (cinit c mem) ls s) {t p n : Nat}
    (ht : (u t).masks = true ∨ ∀ t', t < t' → (u t').allocates = false ∧ (u t').frees = false) (hp : s.pc t = .aNext p n) :
    s.head = p := by
  have hU : Undisturbed u s := by
    clear hp
    induction h with
    | nil => exact ⟨fun _ h => (h rfl).elim, fun _ _ _ h => nomatch h⟩
    | snoc _ hi hs ih => exact ih.step hi hs
  exact hU.cand t p ht (by rw [hp]; rfl)

/-- The main program and the handlers of one priority. -/
def twoLevels (main handler : Level) : Nat → Level
  | 0 => main
  | 1 => handler
  | _ => ⟨false, false, false⟩

/-- C118: the table for a main program and one handler. -/
theorem C118_main_and_handler {c : Cfg} (hc : c.WF) (main handler : Level) :
    (∀ mem ls s, Run c (Interrupts (twoLevels main handler)) (cinit c mem) ls s → Safe c s) ↔
    main.masks = true ∨ (main.allocates = false ∧ main.frees = false) ∨ handler.allocates = false ∨
      (main.frees = false ∧ handler.frees = false) := by
  rw [C118_exact_partial hc]
  have h2 : ∀ t', 0 < t' → t' ≠ 1 → twoLevels main handler t' = ⟨false, false, false⟩ := by
    intro t' h h'
    match t', h, h' with
    | t' + 2, _, _ => rfl
  constructor
  · intro h
    rcases h 0 with h | h | h | h
    · exact .inl h
    · exact .inr (.inl h)
    · exact .inr (.inr (.inl (h 1 (by decide))))
    · exact .inr (.inr (.inr ⟨h.1, h.2 1 (by decide)⟩))
  · intro h t
    by_cases ht : t = 0
    · subst ht
      rcases h with h | h | h | h
      · exact .inl h
      · exact .inr (.inl h)
      · refine .inr (.inr (.inl fun t' ht' => ?_))
        by_cases h1 : t' = 1
        · subst h1; exact h
        · rw [h2 t' ht' h1]
      · refine .inr (.inr (.inr ⟨h.1, fun t' ht' => ?_⟩))
        by_cases h1 : t' = 1
        · subst h1; exact h.2
        · rw [h2 t' ht' h1]
    · refine .inr (.inr (.inl fun t' ht' => ?_))
      rw [h2 t' (by omega) (by omega)]

/-- C118 is false: a handler that allocates a block for what it receives and a main program that gives it back share no pool safely. -/
theorem C118_full_statement_fails : ¬ C118_Statement ∧ ∀ c : Cfg, c.WF →
    ∃ ls s, Run c (Interrupts (twoLevels ⟨false, true, false⟩ ⟨true, false, false⟩)) (cinit c fun _ => 0) ls s ∧ ¬ Safe c s := by
  have key : ∀ c : Cfg, c.WF →
      ∃ ls s, Run c (Interrupts (twoLevels ⟨false, true, false⟩ ⟨true, false, false⟩)) (cinit c fun _ => 0) ls s ∧ ¬ Safe c s := by
    intro c hc
    obtain ⟨s, ⟨ls, h⟩, hn⟩ := breaks_free hc (u := twoLevels ⟨false, true, false⟩ ⟨true, false, false⟩) (fun _ => 0) (t := 0) (t' := 1)
      (by decide) rfl rfl rfl
    exact ⟨ls, s, h, hn⟩
  refine ⟨fun h => ?_, key⟩
  obtain ⟨ls, s, hr, hn⟩ := key cfg2 cfg2_wf
  exact hn (h _ _ _ _ _ cfg2_wf hr)

/-- A main program that allocates and a handler that gives back are safe; so is the converse with interrupts switched off. -/
example : SafeUsage (twoLevels ⟨true, true, false⟩ ⟨false, true, false⟩) ∧ SafeUsage (twoLevels ⟨true, true, true⟩ ⟨true, true, false⟩) :=
  ⟨(C118_exact_partial cfg2_wf _).1 ((C118_main_and_handler cfg2_wf _ _).2 (by decide)),
   (C118_exact_partial cfg2_wf _).1 ((C118_main_and_handler cfg2_wf _ _).2 (by decide))⟩

/-- Such a run in which something happens: the main program holds a block and allocates another one; the handler gives back the first, so
that the compare-exchange of the main program is going to fail. -/
example : ∃ s, Reaches cfg2 (Interrupts (twoLevels ⟨true, false, false⟩ ⟨false, true, false⟩)) (cinit cfg2 fun _ => 0) s ∧
    s.pc 0 = .aNext 24 0 ∧ s.head = 16 ∧ s.live = [] := by
  have h0 : CanRun (twoLevels ⟨true, false, false⟩ ⟨false, true, false⟩) (cinit cfg2 fun _ => 0) 0 := ⟨fun _ _ => rfl, fun _ _ _ => rfl⟩
  have h1 := Reaches.allocOne ⟨[], Run.nil (c := cfg2) (cinit cfg2 fun _ => 0)⟩ (t := 0) rfl h0 rfl (by decide) (by decide)
  have up : ∀ {s : CState}, (∀ i, s.pc (i + 1) = .idle) → CanRun (twoLevels ⟨true, false, false⟩ ⟨false, true, false⟩) s 0 := by
    intro s hs
    refine ⟨fun i hi => ?_, fun _ h => nomatch h⟩
    match i, hi with
    | i + 1, _ => exact hs i
  have h2 := ((h1.then (.callAlloc 0) ⟨rfl, up fun _ => rfl⟩ rfl).then (.load 0) (up fun _ => rfl) rfl).then (.readNext 0)
    (up fun _ => rfl) rfl
  refine ⟨_, h2.freeOne (t := 1) (b := 16) rfl ⟨?_, ?_⟩ rfl ?_ ?_, rfl, rfl, ?_⟩
  · intro i hi
    match i, hi with
    | i + 2, _ => rfl
  · intro i hi hm
    match i, hi with
    | 0, _ => cases hm
  · decide
  · decide
  · decide

/-! ## The same for threads -/

/-- C25, partial: for threads the condition is stronger. For every pool and any number of threads, whatever they write into their blocks,
all interleavings are safe if and only if no thread gives blocks back while another one allocates at all: there is one thread only
that uses the pool, or none gives back, or none allocates. -/
theorem C25_usage_exact_partial {c : Cfg} (hc : c.WF) (u : Nat → Level) :
    (∀ mem ls s, Run c (Threads u) (cinit c mem) ls s → Safe c s) ↔
    ∀ t t', t ≠ t' → (u t).allocates = true → (u t').frees = false := by
  constructor
  · intro h t t' hne ha
    cases hf : (u t').frees with
    | false => rfl
    | true =>
      obtain ⟨s, ⟨ls, hr⟩, hn⟩ := breaks_threads hc (fun _ => 0) hne hf ha
      exact absurd (h _ ls s hr) hn
  · exact fun hu mem ls s h => C25_race_free_safe_partial hc (threads_raceFree hu h)

/-- One thread that allocates and gives back, beside others that do nothing; and several threads that only allocate. -/
example : (∀ t t', t ≠ t' → (twoLevels ⟨true, true, false⟩ ⟨false, false, false⟩ t).allocates = true →
      (twoLevels ⟨true, true, false⟩ ⟨false, false, false⟩ t').frees = false) ∧
    ∀ t t' : Nat, t ≠ t' → ((fun _ => ⟨true, false, false⟩ : Nat → Level) t).allocates = true →
      ((fun _ => ⟨true, false, false⟩ : Nat → Level) t').frees = false := by
  refine ⟨fun t t' hne ha => ?_, fun _ _ _ _ => rfl⟩
  match t, t', hne with
  | 0, 1, _ | 0, _ + 2, _ => rfl
  | 1, _, _ | _ + 2, _, _ => exact nomatch (show false = true from ha)

end Uavcan.PoolConc
