import Verif.Spec.PoolInterrupt
import Verif.Props.PoolConc

/-! Lemmas for `Props/PoolInterrupt`: interrupts that meet the condition of C118 never race. -/

namespace Uavcan.PoolConc
open Pool Spec

/-- How an action moves its thread. -/
inductive Moves (s : CState) : Action → Nat → PC → Prop where
  | callAlloc {t} : s.pc t = .idle → Moves s (.callAlloc t) t .aStart
  | loadEmpty {t} : s.pc t = .aStart → Moves s (.load t) t .idle
  | load {t} : s.pc t = .aStart → s.head ≠ 0 → Moves s (.load t) t (.aLoaded s.head)
  | readNext {t p} : s.pc t = .aLoaded p → Moves s (.readNext t) t (.aNext p (s.link p))
  | cas {t p n sp} : s.pc t = .aNext p n → Moves s (.cas t sp) t .idle
  | casFailed {t p n sp} : s.pc t = .aNext p n → Moves s (.cas t sp) t .aStart
  | callFree {t b} : s.pc t = .idle → Moves s (.callFree t b) t (.dStart b)
  | exchange {t b} : s.pc t = .dStart b → Moves s (.exchange t) t (.dLink b s.head)
  | store {t b o} : s.pc t = .dLink b o → Moves s (.store t) t .idle

theorem step_moves {c : Cfg} {s s' : CState} {a : Action} (hs : step c s a = some (.ok s')) :
    (∃ b v, a = .clientWrite b v ∧ s'.pc = s.pc) ∨
    ∃ t q, Moves s a t q ∧ ∀ i, s'.pc i = if i = t then q else s.pc i := by
  cases a with
  | callAlloc t =>
    simp only [step] at hs
    cases hp : s.pc t <;> rw [hp] at hs <;> cases hs
    exact .inr ⟨t, _, .callAlloc hp, fun _ => rfl⟩
  | load t =>
    simp only [step] at hs
    cases hp : s.pc t <;> rw [hp] at hs <;> cases hs
    by_cases h0 : s.head = 0
    · exact .inr ⟨t, _, .loadEmpty hp, fun _ => by rw [if_pos h0]; rfl⟩
    · exact .inr ⟨t, _, .load hp h0, fun _ => by rw [if_neg h0]; rfl⟩
  | readNext t =>
    simp only [step] at hs
    cases hp : s.pc t <;> rw [hp] at hs <;> try cases hs
    simp only at hs
    split at hs <;> cases hs
    exact .inr ⟨t, _, .readNext hp, fun _ => rfl⟩
  | cas t sp =>
    simp only [step] at hs
    cases hp : s.pc t <;> rw [hp] at hs <;> cases hs
    rename_i p n
    by_cases h0 : s.head = p ∧ sp = false
    · exact .inr ⟨t, _, .cas hp, fun _ => by rw [if_pos h0]; rfl⟩
    · exact .inr ⟨t, _, .casFailed hp, fun _ => by rw [if_neg h0]; rfl⟩
  | callFree t b =>
    simp only [step] at hs
    cases hp : s.pc t <;> rw [hp] at hs <;> try cases hs
    simp only at hs
    split at hs <;> cases hs
    exact .inr ⟨t, _, .callFree hp, fun _ => rfl⟩
  | exchange t =>
    simp only [step] at hs
    cases hp : s.pc t <;> rw [hp] at hs <;> cases hs
    exact .inr ⟨t, _, .exchange hp, fun _ => rfl⟩
  | store t =>
    simp only [step] at hs
    cases hp : s.pc t <;> rw [hp] at hs <;> try cases hs
    simp only at hs
    split at hs <;> cases hs
    exact .inr ⟨t, _, .store hp, fun _ => rfl⟩
  | clientWrite b v =>
    simp only [step] at hs
    split at hs <;> cases hs
    exact .inl ⟨b, v, rfl, rfl⟩

/-- The candidate of a thread in `allocate`. -/
def PC.candidate : PC → Option Nat
  | .aLoaded p | .aNext p _ => some p
  | _ => none

/-- Each level only makes calls it is allowed to, and a candidate that nobody else can take is in the list. -/
structure LevelInv (u : Nat → Level) (s : CState) (F : List Nat) : Prop where
  alloc : ∀ t, Allocating (s.pc t) → (u t).allocates = true
  free : ∀ t, Freeing (s.pc t) → (u t).frees = true
  cand : ∀ t p, (s.pc t).candidate = some p → (∀ t', t < t' → (u t').allocates = false) → p ∈ F

theorem Moves.canRun {u : Nat → Level} {s : CState} {a : Action} {t : Nat} {q : PC} (h : Moves s a t q) (hi : Interrupts u s a) :
    CanRun u s t := by
  cases h <;> first | exact hi | exact hi.2

theorem LevelInv.step {c : Cfg} (hc : c.WF) {u : Nat → Level} {s s' : CState} {F : List Nat} {a : Action} (h : LevelInv u s F)
    (hI : CInv c s F) (hi : Interrupts u s a) (hs : PoolConc.step c s a = some (.ok s')) : LevelInv u s' (absStep s F a) := by
  rcases step_moves hs with ⟨b, v, rfl, hpc⟩ | ⟨t, q, hm, hpc⟩
  · exact ⟨fun t => by rw [hpc]; exact h.alloc t, fun t => by rw [hpc]; exact h.free t, fun t p => by rw [hpc]; exact h.cand t p⟩
  · have hrun := hm.canRun hi
    refine ⟨fun i => ?_, fun i => ?_, fun i p => ?_⟩ <;> rw [hpc i] <;> split
    · rename_i e; subst e
      intro hq
      cases hm with
      | callAlloc => exact hi.1
      | load hp | readNext hp | casFailed hp => exact h.alloc _ (by rw [hp]; trivial)
      | _ => exact hq.elim
    · exact h.alloc i
    · rename_i e; subst e
      intro hq
      cases hm with
      | callFree => exact hi.1
      | exchange hp => exact h.free _ (by rw [hp]; trivial)
      | _ => exact hq.elim
    · exact h.free i
    · rename_i e; subst e
      intro hq hn
      cases hm with
      | load hp h0 =>
        cases hq
        obtain ⟨F', rfl⟩ := (hI.head hc).2 h0
        exact List.mem_cons_self
      | readNext hp =>
        cases hq
        exact h.cand i _ (by rw [hp]; rfl) hn
      | _ => cases hq
    · rename_i hne
      intro hq hn
      have hp := h.cand i p hq hn
      cases hm with
      | @cas _ _ _ sp ht | @casFailed _ _ _ sp ht =>
        -- whoever takes a block is above, but nobody above allocates
        have hlt : i < t := by
          rcases Nat.lt_trichotomy t i with hlt | heq | hlt
          · rw [hrun.1 i hlt] at hq; cases hq
          · exact absurd heq.symm hne
          · exact hlt
        have := h.alloc t (by rw [ht]; trivial)
        rw [hn t hlt] at this; cases this
      | exchange ht => simp only [absStep, ht]; exact List.mem_cons_of_mem _ hp
      | _ => exact hp

theorem LevelInv.raceFree {c : Cfg} {u : Nat → Level} (hu : SafeUsage u) {s : CState} {F : List Nat} {a : Action} (h : LevelInv u s F)
    (hI : CInv c s F) (hi : Interrupts u s a) : RaceFree s a := by
  cases a with
  | readNext t =>
    intro p hp t' o ht'
    have ha := h.alloc t (by rw [hp]; trivial)
    have hf := h.free t' (by rw [ht']; trivial)
    rcases Nat.lt_trichotomy t t' with hlt | rfl | hlt
    · rw [hi.1 t' hlt] at ht'; cases ht'
    · rw [hp] at ht'; cases ht'
    · rcases hu t' with h1 | h1 | h1 | h1
      · rw [hi.2 t' hlt h1] at ht'; cases ht'
      · rw [h1.2] at hf; cases hf
      · rw [h1 t hlt] at ha; cases ha
      · rw [h1.1] at hf; cases hf
  | exchange t =>
    intro b hb t' n ht'
    have ha := h.alloc t' (by rw [ht']; trivial)
    have hf := h.free t (by rw [hb]; trivial)
    rcases Nat.lt_trichotomy t t' with hlt | rfl | hlt
    · rw [hi.1 t' hlt] at ht'; cases ht'
    · rw [hb] at ht'; cases ht'
    · rcases hu t' with h1 | h1 | h1 | h1
      · rw [hi.2 t' hlt h1] at ht'; cases ht'
      · rw [h1.1] at ha; cases ha
      · exact (hI.ds t b hb).2.1 (h.cand t' b (by rw [ht']; rfl) h1)
      · rw [h1.2 t hlt] at hf; cases hf
  | _ => trivial

theorem interrupts_raceFree {c : Cfg} (hc : c.WF) {u : Nat → Level} (hu : SafeUsage u) {mem : Mem} {ls : List Label} {s : CState}
    (h : Run c (Interrupts u) (cinit c mem) ls s) :
    Run c RaceFree (cinit c mem) ls s ∧ ∃ F, CInv c s F ∧ LevelInv u s F := by
  induction h with
  | nil =>
    refine ⟨.nil _, _, CInv.init hc mem, ⟨?_, ?_, ?_⟩⟩
    · exact fun _ h => h.elim
    · exact fun _ h => h.elim
    · exact fun _ _ h => nomatch h
  | snoc _ hi hs ih =>
    obtain ⟨hr, F, hI, hL⟩ := ih
    have hrf := hL.raceFree hu hI hi
    obtain ⟨s', e, hI'⟩ := hI.step hc hrf hs
    cases e
    exact ⟨.snoc hr hrf hs, _, hI', hL.step hc hI hi hs⟩

/-! ## Runs that break the pool -/

/-- Some interleaving leads there. -/
def Reaches (c : Cfg) (P : CState → Action → Prop) (s s' : CState) : Prop := ∃ ls, Run c P s ls s'

theorem Reaches.then {c : Cfg} {P : CState → Action → Prop} {s s' s'' : CState} (h : Reaches c P s s') (a : Action) (ha : P s' a)
    (hs : step c s' a = some (.ok s'')) : Reaches c P s s'' := by
  obtain ⟨ls, h⟩ := h
  exact ⟨_, .snoc h ha hs⟩

theorem CanRun.congr {u : Nat → Level} {s s' : CState} {t : Nat} (h : CanRun u s t) (hpc : ∀ i, i ≠ t → s'.pc i = s.pc i) :
    CanRun u s' t :=
  ⟨fun i hi => by rw [hpc i (by omega)]; exact h.1 i hi, fun i hi hm => by rw [hpc i (by omega)]; exact h.2 i hi hm⟩

/-- An uninterrupted `allocate`. -/
theorem Reaches.allocOne {c : Cfg} {u : Nat → Level} {s0 s : CState} (h : Reaches c (Interrupts u) s0 s) {t : Nat}
    (hu : (u t).allocates = true) (hr : CanRun u s t) (hp : s.pc t = .idle) (hh : s.head ≠ 0) (hb : c.isBlock s.head = true) :
    Reaches c (Interrupts u) s0 ⟨s.link s.head, s.link, s.pc, s.head :: s.live⟩ := by
  have h1 := h.then (s'' := s.goto t .aStart) (.callAlloc t) ⟨hu, hr⟩ (by simp [step, hp])
  have h2 := h1.then (s'' := s.goto t (.aLoaded s.head)) (.load t) (hr.congr (fun i hi => by simp [CState.goto, hi]))
    (by simp [step, CState.goto, hh]; funext i; by_cases hi : i = t <;> simp [hi])
  have h3 := h2.then (s'' := s.goto t (.aNext s.head (s.link s.head))) (.readNext t)
    (hr.congr (fun i hi => by simp [CState.goto, hi]))
    (by simp [step, CState.goto, hb]; funext i; by_cases hi : i = t <;> simp [hi])
  refine h3.then (.cas t false) (hr.congr (fun i hi => by simp [CState.goto, hi])) ?_
  simp [step, CState.goto]
  funext i; by_cases hi : i = t <;> simp [hi, hp]

/-- An uninterrupted `deallocate`. -/
theorem Reaches.freeOne {c : Cfg} {u : Nat → Level} {s0 s : CState} (h : Reaches c (Interrupts u) s0 s) {t b : Nat}
    (hu : (u t).frees = true) (hr : CanRun u s t) (hp : s.pc t = .idle) (hl : b ∈ s.live) (hb : c.isBlock b = true) :
    Reaches c (Interrupts u) s0 ⟨b, fun a => if a = b then s.head else s.link a, s.pc, s.live.erase b⟩ := by
  have h1 := h.then (s'' := { s.goto t (.dStart b) with live := s.live.erase b }) (.callFree t b) ⟨hu, hr⟩ (by simp [step, hp, hl])
  have h2 := h1.then (s'' := { s.goto t (.dLink b s.head) with live := s.live.erase b, head := b }) (.exchange t)
    (hr.congr (fun i hi => by simp [CState.goto, hi]))
    (by simp [step, CState.goto]; funext i; by_cases hi : i = t <;> simp [hi])
  refine h2.then (.store t) (hr.congr (fun i hi => by simp [CState.goto, hi])) ?_
  simp [step, CState.goto, hb]
  funext i; by_cases hi : i = t <;> simp [hi, hp]

theorem not_safe {c : Cfg} {s : CState} (hi : ∀ t, s.pc t = .idle) (h0 : s.head ≠ 0) (hl : s.head ∈ s.live) : ¬ Safe c s := by
  intro h
  obtain ⟨F, h1, h2, -⟩ := h.noneLost hi
  cases F with
  | nil => exact h0 h1
  | cons a F =>
    obtain ⟨rfl, -⟩ := h1
    exact (List.nodup_cons.1 h2).1 (List.mem_append_right _ hl)

theorem cinit_head {c : Cfg} (hc : c.WF) (mem : Mem) : (cinit c mem).head ≠ 0 ∧ c.isBlock (cinit c mem).head = true := by
  have h := CInv.init hc mem
  have hne : (cinit c mem).head ≠ 0 := by
    intro h0
    have := (h.head hc).1.1 h0
    have hpos := hc.numBlocks_pos
    have := congrArg List.length this
    simp at this; omega
  obtain ⟨F', hF⟩ := (h.head hc).2 hne
  exact ⟨hne, h.blkF _ (by rw [hF]; exact List.mem_cons_self)⟩

/-- Interrupted `deallocate`: a handler takes the block before its link is stored. -/
theorem breaks_free {c : Cfg} (hc : c.WF) {u : Nat → Level} (mem : Mem) {t t' : Nat} (ht : t < t') (hm : (u t).masks = false)
    (hf : (u t).frees = true) (ha : (u t').allocates = true) :
    ∃ s, Reaches c (Interrupts u) (cinit c mem) s ∧ ¬ Safe c s := by
  obtain ⟨h0, hb⟩ := cinit_head hc mem
  have hidle : ∀ i, (cinit c mem).pc i = .idle := fun _ => rfl
  generalize cinit c mem = s0 at *
  obtain ⟨A, link, pc, live⟩ := s0
  simp only at h0 hb hidle
  have hpc : pc = fun _ => .idle := funext hidle
  subst hpc
  have h1 := Reaches.allocOne (u := u) ⟨[], Run.nil (⟨A, link, fun _ => .idle, live⟩ : CState)⟩ ha ⟨fun _ _ => rfl, fun _ _ _ => rfl⟩
    rfl h0 hb
  have h2 := h1.then (s'' := ⟨link A, fun a => if a = A then A else link a, fun _ => .idle, A :: live⟩) (.clientWrite A A) trivial
    (by simp [step])
  have h3 := h2.then (s'' := ⟨link A, fun a => if a = A then A else link a, fun i => if i = t then .dStart A else .idle, live⟩)
    (.callFree t A) ⟨hf, fun _ _ => rfl, fun _ _ _ => rfl⟩ (by simp [step, CState.goto])
  have h4 := h3.then (s'' := ⟨A, fun a => if a = A then A else link a, fun i => if i = t then .dLink A (link A) else .idle, live⟩)
    (.exchange t) ⟨fun i hi => if_neg (by omega), fun i hi _ => if_neg (by omega)⟩
    (by simp [step, CState.goto]; funext i; by_cases hi : i = t <;> simp [hi])
  have h5 := h4.allocOne ha (t := t') ⟨fun i hi => if_neg (by omega), fun i hi hmi => if_neg (by rintro rfl; rw [hm] at hmi; cases hmi)⟩
    (if_neg (by omega)) h0 hb
  have h6 := h5.then (s'' := ⟨A, fun a => if a = A then link A else link a, fun _ => .idle, A :: live⟩) (.store t)
    ⟨fun i hi => if_neg (by omega), fun i hi _ => if_neg (by omega)⟩
    (by
      simp [step, CState.goto, hb]
      constructor
      · funext a; by_cases ha : a = A <;> simp [ha]
      · funext i; by_cases hi : i = t <;> simp [hi])
  exact ⟨_, h6, not_safe (fun _ => rfl) h0 List.mem_cons_self⟩

/-- Interrupted `allocate`: handlers take its candidate and put it back. -/
theorem breaks_alloc {c : Cfg} (hc : c.WF) {u : Nat → Level} (mem : Mem) {t t' t'' : Nat} (ht : t < t') (ht' : t < t'')
    (hm : (u t).masks = false) (ha : (u t).allocates = true) (ha' : (u t').allocates = true) (hf : (u t'').frees = true) :
    ∃ s, Reaches c (Interrupts u) (cinit c mem) s ∧ ¬ Safe c s := by
  obtain ⟨h0, hb⟩ := cinit_head hc mem
  have hidle : ∀ i, (cinit c mem).pc i = .idle := fun _ => rfl
  generalize cinit c mem = s0 at *
  obtain ⟨A, link, pc, live⟩ := s0
  simp only at h0 hb hidle
  have hpc : pc = fun _ => .idle := funext hidle
  subst hpc
  have h1 := Reaches.then (P := Interrupts u) ⟨[], Run.nil (c := c) (⟨A, link, fun _ => .idle, live⟩ : CState)⟩
    (s'' := ⟨A, link, fun i => if i = t then .aStart else .idle, live⟩)
    (.callAlloc t) ⟨ha, fun _ _ => rfl, fun _ _ _ => rfl⟩ (by simp [step, CState.goto])
  have h2 := h1.then (s'' := ⟨A, link, fun i => if i = t then .aLoaded A else .idle, live⟩)
    (.load t) ⟨fun i hi => if_neg (by omega), fun i hi _ => if_neg (by omega)⟩
    (by simp [step, CState.goto, h0]; funext i; by_cases hi : i = t <;> simp [hi])
  have h3 := h2.allocOne ha' (t := t') ⟨fun i hi => if_neg (by omega), fun i hi hmi => if_neg (by rintro rfl; rw [hm] at hmi; cases hmi)⟩
    (if_neg (by omega)) h0 hb
  have h4 := h3.then (s'' := ⟨link A, fun a => if a = A then A else link a, fun i => if i = t then .aLoaded A else .idle, A :: live⟩)
    (.clientWrite A A) trivial (by simp [step])
  have h5 := h4.then (s'' := ⟨link A, fun a => if a = A then A else link a, fun i => if i = t then .aNext A A else .idle, A :: live⟩)
    (.readNext t) ⟨fun i hi => if_neg (by omega), fun i hi _ => if_neg (by omega)⟩
    (by simp [step, CState.goto, hb]; funext i; by_cases hi : i = t <;> simp [hi])
  have h6 := h5.freeOne hf (t := t'') (b := A)
    ⟨fun i hi => if_neg (by omega), fun i hi hmi => if_neg (by rintro rfl; rw [hm] at hmi; cases hmi)⟩
    (if_neg (by omega)) List.mem_cons_self hb
  have h7 := h6.then (s'' := ⟨A, _, fun _ => .idle, A :: live⟩) (.cas t false)
    ⟨fun i hi => if_neg (by omega), fun i hi _ => if_neg (by omega)⟩
    (by simp [step, CState.goto]; constructor; rfl; funext i; by_cases hi : i = t <;> simp [hi])
  exact ⟨_, h7, not_safe (fun _ => rfl) h0 List.mem_cons_self⟩

/-! ## Threads -/

theorem threads_calls {c : Cfg} {u : Nat → Level} {mem : Mem} {ls : List Label} {s : CState}
    (h : Run c (Threads u) (cinit c mem) ls s) :
    (∀ t, Allocating (s.pc t) → (u t).allocates = true) ∧ ∀ t, Freeing (s.pc t) → (u t).frees = true := by
  induction h with
  | nil => exact ⟨fun _ h => h.elim, fun _ h => h.elim⟩
  | snoc _ hi hs ih =>
    rcases step_moves hs with ⟨b, v, rfl, hpc⟩ | ⟨t, q, hm, hpc⟩
    · exact ⟨fun t => by rw [hpc]; exact ih.1 t, fun t => by rw [hpc]; exact ih.2 t⟩
    · refine ⟨fun i => ?_, fun i => ?_⟩ <;> rw [hpc i] <;> split
      · rename_i e; subst e
        intro hq
        cases hm with
        | callAlloc => exact hi
        | load hp | readNext hp | casFailed hp => exact ih.1 _ (by rw [hp]; trivial)
        | _ => exact hq.elim
      · exact ih.1 i
      · rename_i e; subst e
        intro hq
        cases hm with
        | callFree => exact hi
        | exchange hp => exact ih.2 _ (by rw [hp]; trivial)
        | _ => exact hq.elim
      · exact ih.2 i

theorem threads_raceFree {c : Cfg} {u : Nat → Level}
    (hu : ∀ t t', t ≠ t' → (u t).allocates = true → (u t').frees = false) {mem : Mem} {ls : List Label} {s : CState}
    (h : Run c (Threads u) (cinit c mem) ls s) : Run c RaceFree (cinit c mem) ls s := by
  induction h with
  | nil => exact .nil _
  | @snoc s' s'' ls a hr hi hs ih =>
    obtain ⟨ha, hf⟩ := threads_calls hr
    refine .snoc ih ?_ hs
    cases a with
    | readNext t =>
      intro p hp t' o ht'
      have hne : t ≠ t' := by rintro rfl; rw [hp] at ht'; cases ht'
      have h1 := ha t (by rw [hp]; trivial)
      have h2 := hf t' (by rw [ht']; trivial)
      rw [hu t t' hne h1] at h2; cases h2
    | exchange t =>
      intro b hb t' n ht'
      have hne : t' ≠ t := by rintro rfl; rw [hb] at ht'; cases ht'
      have h1 := ha t' (by rw [ht']; trivial)
      have h2 := hf t (by rw [hb]; trivial)
      rw [hu t' t hne h1] at h2; cases h2
    | _ => trivial

/-- `allocate` of one thread, without a step of another. -/
theorem Reaches.allocThread {c : Cfg} {u : Nat → Level} {s0 s : CState} (h : Reaches c (Threads u) s0 s) {t : Nat}
    (hu : (u t).allocates = true) (hp : s.pc t = .idle) (hh : s.head ≠ 0) (hb : c.isBlock s.head = true) :
    Reaches c (Threads u) s0 ⟨s.link s.head, s.link, s.pc, s.head :: s.live⟩ := by
  have h1 := h.then (s'' := s.goto t .aStart) (.callAlloc t) hu (by simp [step, hp])
  have h2 := h1.then (s'' := s.goto t (.aLoaded s.head)) (.load t) trivial
    (by simp [step, CState.goto, hh]; funext i; by_cases hi : i = t <;> simp [hi])
  have h3 := h2.then (s'' := s.goto t (.aNext s.head (s.link s.head))) (.readNext t) trivial
    (by simp [step, CState.goto, hb]; funext i; by_cases hi : i = t <;> simp [hi])
  refine h3.then (.cas t false) trivial ?_
  simp [step, CState.goto]
  funext i; by_cases hi : i = t <;> simp [hi, hp]

theorem breaks_threads {c : Cfg} (hc : c.WF) {u : Nat → Level} (mem : Mem) {t t' : Nat} (ht : t' ≠ t)
    (hf : (u t).frees = true) (ha : (u t').allocates = true) :
    ∃ s, Reaches c (Threads u) (cinit c mem) s ∧ ¬ Safe c s := by
  obtain ⟨h0, hb⟩ := cinit_head hc mem
  have hidle : ∀ i, (cinit c mem).pc i = .idle := fun _ => rfl
  generalize cinit c mem = s0 at *
  obtain ⟨A, link, pc, live⟩ := s0
  simp only at h0 hb hidle
  have hpc : pc = fun _ => .idle := funext hidle
  subst hpc
  have h1 := Reaches.allocThread (u := u) ⟨[], Run.nil (⟨A, link, fun _ => .idle, live⟩ : CState)⟩ ha rfl h0 hb
  have h2 := h1.then (s'' := ⟨link A, fun a => if a = A then A else link a, fun _ => .idle, A :: live⟩) (.clientWrite A A) trivial
    (by simp [step])
  have h3 := h2.then (s'' := ⟨link A, fun a => if a = A then A else link a, fun i => if i = t then .dStart A else .idle, live⟩)
    (.callFree t A) hf (by simp [step, CState.goto])
  have h4 := h3.then (s'' := ⟨A, fun a => if a = A then A else link a, fun i => if i = t then .dLink A (link A) else .idle, live⟩)
    (.exchange t) trivial (by simp [step, CState.goto]; funext i; by_cases hi : i = t <;> simp [hi])
  have h5 := h4.allocThread ha (t := t') (if_neg ht) h0 hb
  have h6 := h5.then (s'' := ⟨A, fun a => if a = A then link A else link a, fun _ => .idle, A :: live⟩) (.store t) trivial
    (by
      simp [step, CState.goto, hb]
      constructor
      · funext a; by_cases ha : a = A <;> simp [ha]
      · funext i; by_cases hi : i = t <;> simp [hi])
  exact ⟨_, h6, not_safe (fun _ => rfl) h0 List.mem_cons_self⟩

end Uavcan.PoolConc
