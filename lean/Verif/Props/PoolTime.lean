import Verif.Spec.PoolTime
import Verif.Props.PoolConc

/-!
# C108: calls to the pool take bounded time
-/

namespace Uavcan.PoolConc
open Pool Spec

/-- How many accesses a call of `allocate` has made since it last started over. -/
def PC.round : PC → Nat
  | .aLoaded _ => 1
  | .aNext _ _ => 2
  | _ => 0

/-- The head of the list is no longer the one that an `allocate` has loaded. -/
def PC.stale (h : Nat) : PC → Nat
  | .aLoaded p | .aNext p _ => if p = h then 0 else 1
  | _ => 0

instance (p : PC) : Decidable (Allocating p) := by
  cases p <;> simp only [Allocating] <;> infer_instance

/-- Accounts of one call of `allocate`. -/
def Account (t : Nat) (own : Nat) (ls : List Label) (spur : Nat) (s : CState) : Prop :=
  if Allocating (s.pc t) then ∃ failed, own = 3 * failed + (s.pc t).round ∧
    failed + (s.pc t).stale s.head ≤ ls.countP (effectOfOther t) + spur
  else s.pc t = .idle ∧ ∃ failed, own ≤ 3 * failed + 3 ∧ failed ≤ ls.countP (effectOfOther t) + spur

theorem goto_same (s : CState) (t : Nat) (p : PC) : (s.goto t p).pc t = p := by simp [CState.goto]

theorem goto_other (s : CState) {t t' : Nat} (p : PC) (h : t' ≠ t) : (s.goto t p).pc t' = s.pc t' := by simp [CState.goto, h]

/-- What a step does to another thread, the list and the labels. -/
theorem step_other {c : Cfg} {s s' : CState} {a : Action} {t : Nat} (hs : step c s a = some (.ok s')) (hb : ¬ begins t a)
    (ho : ownStep t a = 0) :
    s'.pc t = s.pc t ∧ spuriousStep t a = 0 ∧
      (s'.head ≠ s.head → 1 ≤ (labels s a).countP (effectOfOther t)) := by
  cases a with
  | callAlloc t' =>
    have hne : t ≠ t' := fun h => hb h.symm
    simp only [step] at hs
    split at hs <;> cases hs
    exact ⟨goto_other _ _ hne, rfl, fun h => absurd rfl h⟩
  | load t' =>
    have hne : t ≠ t' := by rintro rfl; simp [ownStep] at ho
    simp only [step] at hs
    split at hs <;> cases hs
    refine ⟨by split <;> exact goto_other _ _ hne, rfl, fun h => absurd ?_ h⟩
    split <;> rfl
  | readNext t' =>
    have hne : t ≠ t' := by rintro rfl; simp [ownStep] at ho
    simp only [step] at hs
    split at hs
    · split at hs <;> cases hs
      exact ⟨goto_other _ _ hne, rfl, fun h => absurd rfl h⟩
    · cases hs
  | cas t' sp =>
    have hne : t ≠ t' := by rintro rfl; simp [ownStep] at ho
    simp only [step] at hs
    split at hs
    · rename_i p n hp
      cases hs
      refine ⟨by split <;> exact goto_other _ _ hne, by cases sp <;> simp [spuriousStep, hne.symm], fun h => ?_⟩
      simp only [labels, hp]
      split
      · simp [effectOfOther, hne.symm]
      · rename_i hc
        rw [if_neg hc] at h
        exact absurd rfl h
    · cases hs
  | callFree t' b =>
    have hne : t ≠ t' := fun h => hb h.symm
    simp only [step] at hs
    split at hs
    · split at hs <;> cases hs
      exact ⟨goto_other _ _ hne, rfl, fun h => absurd rfl h⟩
    · cases hs
  | exchange t' =>
    have hne : t ≠ t' := by rintro rfl; simp [ownStep] at ho
    simp only [step] at hs
    split at hs
    · rename_i b hp
      cases hs
      refine ⟨goto_other _ _ hne, rfl, fun _ => ?_⟩
      simp [labels, hp, effectOfOther, hne.symm]
    · cases hs
  | store t' =>
    have hne : t ≠ t' := by rintro rfl; simp [ownStep] at ho
    simp only [step] at hs
    split at hs
    · split at hs <;> cases hs
      exact ⟨goto_other _ _ hne, rfl, fun h => absurd rfl h⟩
    · cases hs
  | clientWrite b v =>
    simp only [step] at hs
    split at hs <;> cases hs
    exact ⟨rfl, rfl, fun h => absurd rfl h⟩

theorem stale_le (p : PC) (h : Nat) : p.stale h ≤ 1 := by
  cases p <;> simp only [PC.stale] <;> (try split) <;> omega

theorem account {c : Cfg} {allowed : CState → Action → Prop} {t own spur : Nat} {ls : List Label} {s s' : CState}
    (h : During c allowed t s own ls spur s') (h0 : s.pc t = .aStart) : Account t own ls spur s' := by
  induction h with
  | nil => simp [Account, h0, Allocating, PC.round, PC.stale]
  | @snoc s' s'' own spur ls a hd _ hb hs ih =>
    have ih := ih
    by_cases ho : ownStep t a = 0
    · obtain ⟨h1, h2, h3⟩ := step_other hs hb ho
      simp only [Account, h1, ho, h2, List.countP_append, Nat.add_zero] at ih ⊢
      by_cases hA : Allocating (s'.pc t)
      · rw [if_pos hA] at ih ⊢
        obtain ⟨f, i1, i2⟩ := ih
        refine ⟨f, i1, ?_⟩
        by_cases hh : s''.head = s'.head
        · rw [hh]; omega
        · have := h3 hh
          have := stale_le (s'.pc t) s''.head
          omega
      · rw [if_neg hA] at ih ⊢
        obtain ⟨i0, f, i1, i2⟩ := ih
        exact ⟨i0, f, i1, by omega⟩
    · have hmono : ∀ x, x ≤ ls.countP (effectOfOther t) + spur →
          x ≤ (ls ++ labels s' a).countP (effectOfOther t) + (spur + spuriousStep t a) := by
        intro x hx; rw [List.countP_append]; omega
      have hown : ∀ t', (if t' = t then (1 : Nat) else 0) ≠ 0 → t' = t ∧ (if t' = t then (1 : Nat) else 0) = 1 := by
        intro t' h
        by_cases ht : t' = t
        · exact ⟨ht, if_pos ht⟩
        · rw [if_neg ht] at h; exact absurd rfl h
      cases a with
      | callAlloc | callFree | clientWrite => exact absurd rfl ho
      | load t' =>
        obtain ⟨rfl, ho1⟩ := hown t' ho
        simp only [step] at hs
        split at hs
        · rename_i hp
          cases hs
          simp only [Account, hp, Allocating, if_true, PC.round, PC.stale] at ih
          obtain ⟨f, i1, i2⟩ := ih
          by_cases hz : s'.head = 0
          · simp only [if_pos hz, Account, goto_same, Allocating, if_false]
            exact ⟨trivial, f, by simp only [ownStep, if_true]; omega, hmono _ i2⟩
          · simp only [if_neg hz, Account, goto_same, Allocating, if_true]
            refine ⟨f, by simp only [ownStep, if_true, PC.round]; omega, hmono _ ?_⟩
            simp only [PC.stale, CState.goto, if_true]; omega
        · cases hs
      | readNext t' =>
        obtain ⟨rfl, ho1⟩ := hown t' ho
        simp only [step] at hs
        split at hs
        · rename_i p hp
          split at hs <;> cases hs
          simp only [Account, hp, Allocating, if_true, PC.round] at ih
          obtain ⟨f, i1, i2⟩ := ih
          simp only [Account, goto_same, Allocating, if_true]
          exact ⟨f, by simp only [ownStep, if_true, PC.round]; omega, hmono _ i2⟩
        · cases hs
      | cas t' sp =>
        obtain ⟨rfl, ho1⟩ := hown t' ho
        simp only [step] at hs
        split at hs
        · rename_i p n hp
          cases hs
          simp only [Account, hp, Allocating, if_true, PC.round] at ih
          obtain ⟨f, i1, i2⟩ := ih
          by_cases hc : s'.head = p ∧ sp = false
          · simp only [if_pos hc, Account, goto_same, Allocating, if_false]
            exact ⟨trivial, f, by simp only [ownStep, if_true]; omega, hmono _ (by omega)⟩
          · simp only [if_neg hc, Account, goto_same, Allocating, if_true]
            refine ⟨f + 1, by simp only [ownStep, if_true, PC.round]; omega, ?_⟩
            rw [List.countP_append]
            by_cases hh : s'.head = p
            · have : sp = true := by cases sp with
                | true => rfl
                | false => exact absurd ⟨hh, rfl⟩ hc
              subst this
              simp only [PC.stale, spuriousStep, if_true]
              omega
            · simp only [PC.stale, if_neg (Ne.symm hh)] at i2 ⊢
              omega
        · cases hs
      | exchange t' =>
        obtain ⟨rfl, ho1⟩ := hown t' ho
        simp only [step] at hs
        split at hs
        · rename_i b hp
          simp [Account, hp, Allocating] at ih
        · cases hs
      | store t' =>
        obtain ⟨rfl, ho1⟩ := hown t' ho
        simp only [step] at hs
        split at hs
        · rename_i b old hp
          simp [Account, hp, Allocating] at ih
        · cases hs

/-- The accounts of one call of `deallocate`. -/
def FreeAccount (own : Nat) : PC → Prop
  | .dStart _ => own = 0
  | .dLink _ _ => own = 1
  | .idle => own = 2
  | _ => False

theorem freeAccount {c : Cfg} {allowed : CState → Action → Prop} {t own spur b : Nat} {ls : List Label} {s s' : CState}
    (h : During c allowed t s own ls spur s') (h0 : s.pc t = .dStart b) : FreeAccount own (s'.pc t) := by
  induction h with
  | nil => simp [h0, FreeAccount]
  | @snoc s' s'' own spur ls a hd _ hb hs ih =>
    by_cases ho : ownStep t a = 0
    · rw [(step_other hs hb ho).1, ho]; exact ih
    · have hown : ∀ t', (if t' = t then (1 : Nat) else 0) ≠ 0 → t' = t ∧ (if t' = t then (1 : Nat) else 0) = 1 := by
        intro t' h
        by_cases ht : t' = t
        · exact ⟨ht, if_pos ht⟩
        · rw [if_neg ht] at h; exact absurd rfl h
      cases a with
      | callAlloc | callFree | clientWrite => exact absurd rfl ho
      | load t' =>
        obtain ⟨rfl, ho1⟩ := hown t' ho
        simp only [step] at hs
        split at hs
        · rename_i hp; rw [hp] at ih; exact ih.elim
        · cases hs
      | readNext t' =>
        obtain ⟨rfl, ho1⟩ := hown t' ho
        simp only [step] at hs
        split at hs
        · rename_i hp; rw [hp] at ih; exact ih.elim
        · cases hs
      | cas t' sp =>
        obtain ⟨rfl, ho1⟩ := hown t' ho
        simp only [step] at hs
        split at hs
        · rename_i hp; rw [hp] at ih; exact ih.elim
        · cases hs
      | exchange t' =>
        obtain ⟨rfl, ho1⟩ := hown t' ho
        simp only [step] at hs
        split at hs
        · rename_i hp
          cases hs
          rw [hp] at ih
          simp only [goto_same, FreeAccount, ownStep, if_true] at ih ⊢
          omega
        · cases hs
      | store t' =>
        obtain ⟨rfl, ho1⟩ := hown t' ho
        simp only [step] at hs
        split at hs
        · rename_i hp
          split at hs <;> cases hs
          rw [hp] at ih
          simp only [goto_same, FreeAccount, ownStep, if_true] at ih ⊢
          omega
        · cases hs

/-- The property as stated in `properties.jsonl`: for every pool there is a bound on the length of calls, even in race-free runs
without spurious failures. -/
def C108_Statement : Prop :=
  ∀ c : Cfg, c.WF → ∃ bound, ∀ (mem : Mem) (ls : List Label) (s s' : CState) (t own : Nat) (ls' : List Label),
    Run c RaceFree (cinit c mem) ls s → (s.pc t = .aStart ∨ ∃ b, s.pc t = .dStart b) →
    During c RaceFree t s own ls' 0 s' → own ≤ bound

/-- C108, partial: an `allocate` starts over only if meanwhile another thread has taken or put back a block, or the compare-exchange
has failed spuriously; so that is a bound on its length, in every interleaving, race-free or not. `s` is the state when it begins.
Missing: a bound that does not depend on what other threads do; there is none. -/
theorem C108_allocate_partial {c : Cfg} {allowed : CState → Action → Prop} {t own spur : Nat} {ls : List Label} {s s' : CState}
    (h : During c allowed t s own ls spur s') (h0 : s.pc t = .aStart) :
    own ≤ 3 * (ls.countP (effectOfOther t) + spur) + 3 ∧
      (own = 3 * (ls.countP (effectOfOther t) + spur) + 3 → s'.pc t = .idle) := by
  have ha := account h h0
  unfold Account at ha
  split at ha
  · obtain ⟨f, i1, i2⟩ := ha
    have : (s'.pc t).round ≤ 2 := by cases s'.pc t <;> simp [PC.round]
    exact ⟨by omega, fun h => by omega⟩
  · obtain ⟨i0, f, i1, i2⟩ := ha
    exact ⟨by omega, fun _ => i0⟩

/-- C108: `deallocate` returns after two accesses, whatever other threads do. -/
theorem C108_deallocate {c : Cfg} {allowed : CState → Action → Prop} {t own spur b : Nat} {ls : List Label} {s s' : CState}
    (h : During c allowed t s own ls spur s') (h0 : s.pc t = .dStart b) :
    own ≤ 2 ∧ (own = 2 ↔ s'.pc t = .idle) := by
  have ha := freeAccount h h0
  cases hp : s'.pc t <;> rw [hp] at ha <;> simp only [FreeAccount] at ha
  all_goals subst ha; simp

/-- C108: no call ever waits: a thread inside a call can always make its next access. -/
theorem C108_never_waits (c : Cfg) (s : CState) (t : Nat) (h : s.pc t ≠ .idle) :
    ∃ a, ownStep t a = 1 ∧ (step c s a).isSome := by
  cases hp : s.pc t with
  | idle => exact absurd hp h
  | aStart => exact ⟨.load t, by simp [ownStep], by simp [step, hp]⟩
  | aLoaded p => exact ⟨.readNext t, by simp [ownStep], by simp [step, hp]⟩
  | aNext p n => exact ⟨.cas t false, by simp [ownStep], by simp [step, hp]⟩
  | dStart b => exact ⟨.exchange t, by simp [ownStep], by simp [step, hp]⟩
  | dLink b o => exact ⟨.store t, by simp [ownStep], by simp [step, hp]⟩

/-- A call of the thread has not yet taken effect. -/
def PC.pending : PC → Nat
  | .idle | .dLink _ _ => 0
  | _ => 1

theorem pending_step {c : Cfg} {s s' : CState} {a : Action} (t : Nat) (hs : step c s a = some (.ok s')) :
    (labels s a).countP (effectOf t) + (s'.pc t).pending ≤ (labels s a).countP (callOf t) + (s.pc t).pending := by
  cases a with
  | callAlloc t' =>
    simp only [step] at hs
    split at hs <;> cases hs
    rename_i hp
    by_cases ht : t = t'
    · subst ht; simp [labels, effectOf, callOf, goto_same, hp, PC.pending]
    · simp [labels, effectOf, callOf, goto_other _ _ ht]
  | load t' =>
    simp only [step] at hs
    split at hs <;> cases hs
    rename_i hp
    by_cases ht : t = t'
    · subst ht
      by_cases hz : s.head = 0
      · simp [labels, effectOf, callOf, goto_same, hp, hz, PC.pending]
      · simp [labels, goto_same, hp, hz, PC.pending]
    · by_cases hz : s.head = 0
      · simp [labels, effectOf, callOf, goto_other _ _ ht, hz]
      · simp [labels, goto_other _ _ ht, hz]
  | readNext t' =>
    simp only [step] at hs
    split at hs
    · rename_i p hp
      split at hs <;> cases hs
      by_cases ht : t = t'
      · subst ht; simp [labels, goto_same, hp, PC.pending]
      · simp [labels, goto_other _ _ ht]
    · cases hs
  | cas t' sp =>
    simp only [step] at hs
    split at hs
    · rename_i p n hp
      cases hs
      by_cases hc : s.head = p ∧ sp = false
      · rw [if_pos hc]
        by_cases ht : t = t'
        · subst ht; simp [labels, hp, hc, effectOf, callOf, goto_same, PC.pending]
        · have : (t' == t) = false := by simp [Ne.symm ht]
          simp [labels, hp, hc, effectOf, callOf, this, goto_other _ _ ht]
      · rw [if_neg hc]
        by_cases ht : t = t'
        · subst ht; simp [labels, hp, hc, goto_same, PC.pending]
        · simp [labels, hp, hc, goto_other _ _ ht]
    · cases hs
  | callFree t' b =>
    simp only [step] at hs
    split at hs
    · rename_i hp
      split at hs <;> cases hs
      by_cases ht : t = t'
      · subst ht; simp [labels, effectOf, callOf, goto_same, hp, PC.pending]
      · simp [labels, effectOf, callOf, goto_other _ _ ht]
    · cases hs
  | exchange t' =>
    simp only [step] at hs
    split at hs
    · rename_i b hp
      cases hs
      by_cases ht : t = t'
      · subst ht; simp [labels, hp, effectOf, callOf, goto_same, PC.pending]
      · have : (t' == t) = false := by simp [Ne.symm ht]
        simp [labels, hp, effectOf, callOf, this, goto_other _ _ ht]
    · cases hs
  | store t' =>
    simp only [step] at hs
    split at hs
    · rename_i b o hp
      split at hs <;> cases hs
      by_cases ht : t = t'
      · subst ht; simp [labels, hp, effectOf, callOf, goto_same, PC.pending]
      · simp [labels, effectOf, callOf, goto_other _ _ ht]
    · cases hs
  | clientWrite b v =>
    simp only [step] at hs
    split at hs <;> cases hs
    simp [labels]

/-- C108, partial: another thread takes or puts back at most as many blocks as it begins calls, and one more if it was in a call when
the `allocate` began. So an `allocate` is short if little is called meanwhile. -/
theorem C108_effects_need_calls_partial {c : Cfg} {allowed : CState → Action → Prop} {t own spur : Nat} {ls : List Label} {s s' : CState}
    (h : During c allowed t s own ls spur s') (t' : Nat) :
    ls.countP (effectOf t') ≤ ls.countP (callOf t') + (if s.pc t' = .idle then 0 else 1) := by
  have hk : ls.countP (effectOf t') + (s'.pc t').pending ≤ ls.countP (callOf t') + (s.pc t').pending := by
    induction h with
    | nil => simp
    | snoc hd _ _ hs ih =>
      have := pending_step t' hs
      simp only [List.countP_append]
      omega
  have : (s.pc t').pending ≤ if s.pc t' = .idle then 0 else 1 := by
    cases hp : s.pc t' <;> simp [PC.pending]
  omega

/-! ## The bound is reached -/

/-- Two threads on a pool of two blocks, 16 and 24, whose links are as at the beginning. -/
def duo (head : Nat) (p0 p1 : PC) (live : List Nat) (link : Nat → Nat) : CState :=
  { head := head, link := link, pc := fun i => if i = 0 then p0 else if i = 1 then p1 else .idle, live := live }

theorem duo_goto0 (h : Nat) (p0 p1 q : PC) (l : List Nat) (k : Nat → Nat) : (duo h p0 p1 l k).goto 0 q = duo h q p1 l k := by
  simp only [duo, CState.goto, CState.mk.injEq, true_and, and_true]
  funext i
  by_cases hi : i = 0 <;> simp [hi]

theorem duo_goto1 (h : Nat) (p0 p1 q : PC) (l : List Nat) (k : Nat → Nat) : (duo h p0 p1 l k).goto 1 q = duo h p0 q l k := by
  simp only [duo, CState.goto, CState.mk.injEq, true_and, and_true]
  funext i
  by_cases hi : i = 0
  · simp [hi]
  · by_cases hi1 : i = 1 <;> simp [hi1]

theorem duo_pc0 (h : Nat) (p0 p1 : PC) (l : List Nat) (k : Nat → Nat) : (duo h p0 p1 l k).pc 0 = p0 := rfl

theorem duo_pc1 (h : Nat) (p0 p1 : PC) (l : List Nat) (k : Nat → Nat) : (duo h p0 p1 l k).pc 1 = p1 := rfl

/-- The pool steps between two threads that never meet. -/
theorem duo_raceFree {h : Nat} {p0 p1 : PC} {l : List Nat} {k : Nat → Nat} {a : Action}
    (hr : ∀ t, a = .readNext t → ∀ p o, p0 ≠ .dLink p o ∧ p1 ≠ .dLink p o)
    (he : ∀ t, a = .exchange t → ∀ b, (duo h p0 p1 l k).pc t = .dStart b → ∀ n, p0 ≠ .aNext b n ∧ p1 ≠ .aNext b n) :
    RaceFree (duo h p0 p1 l k) a := by
  cases a with
  | readNext t =>
    intro p _ t' o
    have := hr t rfl p o
    simp only [duo]
    split
    · exact this.1
    · split
      · exact this.2
      · intro h; cases h
  | exchange t =>
    intro b hb t' n
    have := he t rfl b hb n
    simp only [duo]
    split
    · exact this.1
    · split
      · exact this.2
      · intro h; cases h
  | _ => trivial

/-- The second thread takes block 16 while the first is about to. -/
theorem starve1 {k : Nat → Nat} (hk : k 16 = 24) :
    ∃ ls, ls.countP (effectOfOther 0) = 1 ∧
      During cfg2 RaceFree 0 (duo 16 .aStart .idle [] k) 3 ls 0 (duo 24 .aStart .idle [16] k) := by
  have h1 : step cfg2 (duo 16 .aStart .idle [] k) (.load 0) = some (.ok (duo 16 (.aLoaded 16) .idle [] k)) :=
    congrArg (fun x => some (Outcome.ok x)) (duo_goto0 16 .aStart .idle (.aLoaded 16) [] k)
  have h2 : step cfg2 (duo 16 (.aLoaded 16) .idle [] k) (.readNext 0) = some (.ok (duo 16 (.aNext 16 24) .idle [] k)) := by
    have := congrArg (fun x => some (Outcome.ok x)) (duo_goto0 16 (.aLoaded 16) .idle (.aNext 16 (k 16)) [] k)
    rw [hk] at this
    rw [← this, ← hk]; rfl
  have h3 : step cfg2 (duo 16 (.aNext 16 24) .idle [] k) (.callAlloc 1) = some (.ok (duo 16 (.aNext 16 24) .aStart [] k)) :=
    congrArg (fun x => some (Outcome.ok x)) (duo_goto1 16 (.aNext 16 24) .idle .aStart [] k)
  have h4 : step cfg2 (duo 16 (.aNext 16 24) .aStart [] k) (.load 1) = some (.ok (duo 16 (.aNext 16 24) (.aLoaded 16) [] k)) :=
    congrArg (fun x => some (Outcome.ok x)) (duo_goto1 16 (.aNext 16 24) .aStart (.aLoaded 16) [] k)
  have h5 : step cfg2 (duo 16 (.aNext 16 24) (.aLoaded 16) [] k) (.readNext 1) =
      some (.ok (duo 16 (.aNext 16 24) (.aNext 16 24) [] k)) := by
    have := congrArg (fun x => some (Outcome.ok x)) (duo_goto1 16 (.aNext 16 24) (.aLoaded 16) (.aNext 16 (k 16)) [] k)
    rw [hk] at this
    rw [← this, ← hk]; rfl
  have h6 : step cfg2 (duo 16 (.aNext 16 24) (.aNext 16 24) [] k) (.cas 1 false) =
      some (.ok (duo 24 (.aNext 16 24) .idle [16] k)) :=
    congrArg (fun x : CState => some (Outcome.ok (CState.mk 24 x.link x.pc [16])))
      (duo_goto1 16 (.aNext 16 24) (.aNext 16 24) .idle [] k)
  have h7 : step cfg2 (duo 24 (.aNext 16 24) .idle [16] k) (.cas 0 false) = some (.ok (duo 24 .aStart .idle [16] k)) :=
    congrArg (fun x => some (Outcome.ok x)) (duo_goto0 24 (.aNext 16 24) .idle .aStart [16] k)
  refine ⟨_, ?_, ((((((((During.nil _).snoc (duo_raceFree ?_ ?_) (by simp [begins]) h1).snoc (duo_raceFree ?_ ?_) (by simp [begins]) h2).snoc
    (duo_raceFree ?_ ?_) (by simp [begins]) h3).snoc (duo_raceFree ?_ ?_) (by simp [begins]) h4).snoc (duo_raceFree ?_ ?_) (by simp [begins]) h5).snoc
    (duo_raceFree ?_ ?_) (by simp [begins]) h6).snoc (duo_raceFree ?_ ?_) (by simp [begins]) h7)⟩
  · rfl
  all_goals (intro t ht; first | cases ht | skip)
  all_goals (intro p o; constructor <;> (intro h; cases h))

/-- The second thread puts block 16 back while the first is about to take block 24. -/
theorem starve2 {k : Nat → Nat} (hk : k 16 = 24) :
    ∃ ls, ls.countP (effectOfOther 0) = 1 ∧
      During cfg2 RaceFree 0 (duo 24 .aStart .idle [16] k) 3 ls 0 (duo 16 .aStart .idle [] k) := by
  have h1 : step cfg2 (duo 24 .aStart .idle [16] k) (.load 0) = some (.ok (duo 24 (.aLoaded 24) .idle [16] k)) :=
    congrArg (fun x => some (Outcome.ok x)) (duo_goto0 24 .aStart .idle (.aLoaded 24) [16] k)
  have h2 : step cfg2 (duo 24 (.aLoaded 24) .idle [16] k) (.readNext 0) = some (.ok (duo 24 (.aNext 24 (k 24)) .idle [16] k)) :=
    congrArg (fun x => some (Outcome.ok x)) (duo_goto0 24 (.aLoaded 24) .idle (.aNext 24 (k 24)) [16] k)
  have h3 : step cfg2 (duo 24 (.aNext 24 (k 24)) .idle [16] k) (.callFree 1 16) =
      some (.ok (duo 24 (.aNext 24 (k 24)) (.dStart 16) [] k)) :=
    congrArg (fun x : CState => some (Outcome.ok (CState.mk x.head x.link x.pc [])))
      (duo_goto1 24 (.aNext 24 (k 24)) .idle (.dStart 16) [16] k)
  have h4 : step cfg2 (duo 24 (.aNext 24 (k 24)) (.dStart 16) [] k) (.exchange 1) =
      some (.ok (duo 16 (.aNext 24 (k 24)) (.dLink 16 24) [] k)) :=
    congrArg (fun x : CState => some (Outcome.ok (CState.mk 16 x.link x.pc x.live)))
      (duo_goto1 24 (.aNext 24 (k 24)) (.dStart 16) (.dLink 16 24) [] k)
  have h5 : step cfg2 (duo 16 (.aNext 24 (k 24)) (.dLink 16 24) [] k) (.store 1) =
      some (.ok (duo 16 (.aNext 24 (k 24)) .idle [] k)) := by
    have e : (fun a => if a = 16 then 24 else k a) = k := by
      funext a
      by_cases ha : a = 16
      · rw [if_pos ha, ha, hk]
      · rw [if_neg ha]
    have := congrArg (fun x : CState => some (Outcome.ok (CState.mk x.head (fun a => if a = 16 then 24 else k a) x.pc x.live)))
      (duo_goto1 16 (.aNext 24 (k 24)) (.dLink 16 24) .idle [] k)
    refine Eq.trans this ?_
    simp only [e]; rfl
  have h6 : step cfg2 (duo 16 (.aNext 24 (k 24)) .idle [] k) (.cas 0 false) = some (.ok (duo 16 .aStart .idle [] k)) :=
    congrArg (fun x => some (Outcome.ok x)) (duo_goto0 16 (.aNext 24 (k 24)) .idle .aStart [] k)
  refine ⟨_, ?_, (((((((During.nil _).snoc (duo_raceFree ?_ ?_) (by simp [begins]) h1).snoc (duo_raceFree ?_ ?_) (by simp [begins]) h2).snoc
    (duo_raceFree ?_ ?_) (by simp [begins]) h3).snoc (duo_raceFree ?_ ?_) (by simp [begins]) h4).snoc (duo_raceFree ?_ ?_) (by simp [begins]) h5).snoc
    (duo_raceFree ?_ ?_) (by simp [begins]) h6)⟩
  · rfl
  all_goals (intro t ht; first | cases ht | skip)
  · intro p o; constructor <;> (intro h; cases h)
  · intro b hb n
    cases hb
    constructor <;> (intro h; cases h)

/-- Left alone, the first thread gets its block. -/
theorem finish {h : Nat} {l : List Nat} {k : Nat → Nat} (hb : cfg2.isBlock h = true) :
    ∃ ls s, ls.countP (effectOfOther 0) = 0 ∧ s.pc 0 = .idle ∧ s.live = h :: l ∧
      During cfg2 RaceFree 0 (duo h .aStart .idle l k) 3 ls 0 s := by
  have h0 : h ≠ 0 := by rintro rfl; revert hb; decide
  have h1 : step cfg2 (duo h .aStart .idle l k) (.load 0) = some (.ok (duo h (.aLoaded h) .idle l k)) := by
    have := congrArg (fun x => some (Outcome.ok x)) (duo_goto0 h .aStart .idle (.aLoaded h) l k)
    rw [← this]
    simp only [step, duo_pc0]
    rw [if_neg (by exact h0)]; rfl
  have h2 : step cfg2 (duo h (.aLoaded h) .idle l k) (.readNext 0) = some (.ok (duo h (.aNext h (k h)) .idle l k)) := by
    have := congrArg (fun x => some (Outcome.ok x)) (duo_goto0 h (.aLoaded h) .idle (.aNext h (k h)) l k)
    rw [← this]
    simp only [step, duo_pc0, hb, if_true]; rfl
  have h3 : step cfg2 (duo h (.aNext h (k h)) .idle l k) (.cas 0 false) =
      some (.ok { (duo h (.aNext h (k h)) .idle l k).goto 0 .idle with head := k h, live := h :: l }) := by
    simp [step, duo]
  refine ⟨_, _, ?_, rfl, rfl, ((((During.nil _).snoc (duo_raceFree ?_ ?_) (by simp [begins]) h1).snoc (duo_raceFree ?_ ?_) (by simp [begins]) h2).snoc
    (duo_raceFree ?_ ?_) (by simp [begins]) h3)⟩
  · simp [labels, duo, h0, effectOfOther]
  all_goals (intro t ht; first | cases ht | skip)
  all_goals (intro p o; constructor <;> (intro h; cases h))

theorem during_trans {c : Cfg} {al : CState → Action → Prop} {t o1 p1 o2 p2 : Nat} {l1 l2 : List Label} {s s1 s2 : CState}
    (h : During c al t s o1 l1 p1 s1) (h' : During c al t s1 o2 l2 p2 s2) : During c al t s (o1 + o2) (l1 ++ l2) (p1 + p2) s2 := by
  induction h' with
  | nil => simpa using h
  | snoc _ ha hb hs ih =>
    have := ih.snoc ha hb hs
    rw [Nat.add_assoc, Nat.add_assoc, List.append_assoc] at this
    exact this

theorem starved {k : Nat → Nat} (hk : k 16 = 24) (n : Nat) :
    (∃ ls s, ls.countP (effectOfOther 0) = n ∧ s.pc 0 = .idle ∧
      During cfg2 RaceFree 0 (duo 16 .aStart .idle [] k) (3 * n + 3) ls 0 s) ∧
    (∃ ls s, ls.countP (effectOfOther 0) = n ∧ s.pc 0 = .idle ∧
      During cfg2 RaceFree 0 (duo 24 .aStart .idle [16] k) (3 * n + 3) ls 0 s) := by
  induction n with
  | zero =>
    obtain ⟨ls, s, h1, h2, _, h3⟩ := finish (h := 16) (l := []) (k := k) (by decide)
    obtain ⟨ls', s', h1', h2', _, h3'⟩ := finish (h := 24) (l := [16]) (k := k) (by decide)
    exact ⟨⟨ls, s, h1, h2, h3⟩, ⟨ls', s', h1', h2', h3'⟩⟩
  | succ n ih =>
    obtain ⟨⟨l1, s1, a1, b1, d1⟩, ⟨l2, s2, a2, b2, d2⟩⟩ := ih
    obtain ⟨m1, e1, f1⟩ := starve1 hk
    obtain ⟨m2, e2, f2⟩ := starve2 hk
    refine ⟨⟨m1 ++ l2, s2, by rw [List.countP_append]; omega, b2, ?_⟩, ⟨m2 ++ l1, s1, by rw [List.countP_append]; omega, b1, ?_⟩⟩
    · have := during_trans f1 d2
      rw [show 3 + (3 * n + 3) = 3 * (n + 1) + 3 by omega] at this
      exact this
    · have := during_trans f2 d1
      rw [show 3 + (3 * n + 3) = 3 * (n + 1) + 3 by omega] at this
      exact this

/-- C108: the bound is reached, for every number of disturbances by a single other thread, without races and without spurious
failures: a pool of two blocks, after its construction. -/
theorem C108_bound_reached (n : Nat) :
    ∃ ls s ls' s', Run cfg2 RaceFree (cinit cfg2 fun _ => 0) ls s ∧ s.pc 0 = .aStart ∧
      During cfg2 RaceFree 0 s (3 * n + 3) ls' 0 s' ∧ ls'.countP (effectOfOther 0) = n ∧ s'.pc 0 = .idle := by
  have hk : (cinit cfg2 fun _ => 0).link 16 = 24 := by decide
  obtain ⟨⟨ls', s', h1, h2, h3⟩, -⟩ := starved hk n
  refine ⟨_, _, ls', s', .snoc (.nil _) (a := .callAlloc 0) trivial rfl, rfl, ?_, h1, h2⟩
  have : (cinit cfg2 fun _ => 0).goto 0 .aStart = duo 16 .aStart .idle [] (cinit cfg2 fun _ => 0).link := by
    simp only [duo, CState.goto, CState.mk.injEq, true_and]
    refine ⟨by decide, ?_, rfl⟩
    funext i
    by_cases hi : i = 0
    · simp [hi]
    · simp [hi, cinit]
  rw [← this] at h3
  exact h3

/-- C108 is false of the code: one thread can hold up another as long as it likes. -/
theorem C108_full_statement_fails : ¬ C108_Statement := by
  intro h
  obtain ⟨bound, hb⟩ := h cfg2 cfg2_wf
  obtain ⟨ls, s, ls', s', h1, h2, h3, -⟩ := C108_bound_reached bound
  have := hb _ ls s s' 0 _ ls' h1 (.inl h2) h3
  omega

/-- A `deallocate` of the second thread, between whose accesses the first loads the head of the list. -/
example (k : Nat → Nat) : ∃ ls s, During cfg2 Any 1 (duo 24 .aStart (.dStart 16) [] k) 2 ls 0 s ∧ s.pc 1 = .idle ∧ s.pc 0 = .aLoaded 16 :=
  ⟨_, _, (((During.nil _).snoc (a := .exchange 1) trivial (by simp [begins]) rfl).snoc (a := .load 0) trivial (by simp [begins])
    rfl).snoc (a := .store 1) trivial (by simp [begins]) rfl, rfl, rfl⟩

/-- The bound for three disturbances: twelve accesses. -/
example : ∃ s ls' s', s.pc 0 = .aStart ∧ During cfg2 RaceFree 0 s 12 ls' 0 s' ∧ ls'.countP (effectOfOther 0) = 3 := by
  obtain ⟨_, s, ls', s', _, h1, h2, h3, _⟩ := C108_bound_reached 3
  exact ⟨s, ls', s', h1, h2, h3⟩

end Uavcan.PoolConc
